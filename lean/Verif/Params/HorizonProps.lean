import Verif.Params.Spec
import Verif.BC.Lemmas

/-!
# Horizons (C50)
-/

noncomputable section

namespace Verif.Params

open Verif
open scoped Classical

/-- No horizon known. -/
def noHorizons : Horizons := ⟨fun _ => none⟩

theorem horizonKey_default {n : String} : horizonKey n = "default" ↔ MeansDefault n := by
  unfold horizonKey MeansDefault
  split
  · rename_i h; exact ⟨fun _ => h, fun _ => rfl⟩
  · rename_i h
    exact ⟨fun e => absurd (Or.inr (Or.inl e)) h, fun e => absurd e h⟩

theorem horizonKey_other {n name : String} (h : ¬ MeansDefault name) : horizonKey n = name ↔ n = name := by
  unfold horizonKey
  split
  · rename_i hn
    constructor
    · intro e; exact absurd (Or.inr (Or.inl e.symm)) h
    · rintro rfl; exact absurd hn h
  · exact Iff.rfl

theorem file_table (v : HorizonValue) (names : List String) (m : Horizons) (k : String) :
    (names.foldl (fileHorizon v) m).table k =
      if ∃ n ∈ names, horizonKey n = k then some v else m.table k := by
  induction names generalizing m with
  | nil => simp
  | cons n names ih =>
    rw [List.foldl_cons, ih]
    unfold fileHorizon
    simp only [List.mem_cons, exists_eq_or_imp]
    by_cases h1 : ∃ n ∈ names, horizonKey n = k
    · rw [if_pos h1, if_pos (Or.inr h1)]
    · rw [if_neg h1]
      by_cases h2 : horizonKey n = k
      · rw [if_pos (Or.inl h2), h2, Function.update_self]
      · rw [if_neg (not_or.mpr ⟨h2, h1⟩), Function.update_of_ne (fun e => h2 e.symm)]

theorem load_ok {m m' : Horizons} {d : HorizonDef} (h : loadHorizon m d = .ok m') :
    m' = d.names.foldl (fileHorizon d.horizon) m := by
  unfold loadHorizon at h
  split at h
  · exact absurd h (by simp)
  · exact (BC.ok_inj h).symm

/-- The entry of a key after loading. -/
theorem load_table (ds : List HorizonDef) (m m' : Horizons) (h : loadHorizons m ds = .ok m') (k : String) :
    m'.table k = ((ds.reverse.find? fun d => ∃ n ∈ d.names, horizonKey n = k).map
      HorizonDef.horizon).or (m.table k) := by
  unfold loadHorizons at h
  induction ds generalizing m with
  | nil => cases BC.ok_inj h; simp
  | cons d ds ih =>
    obtain ⟨m1, h1, h2⟩ := BC.foldlM_cons_ok.mp h
    rw [ih m1 h2, load_ok h1, file_table, List.reverse_cons, List.find?_append]
    cases List.find? (fun d => decide (∃ n ∈ d.names, horizonKey n = k)) ds.reverse with
    | some v => rfl
    | none =>
      simp only [Option.map_none, Option.none_or, List.find?_cons, List.find?_nil]
      by_cases h3 : ∃ n ∈ d.names, horizonKey n = k
      · rw [if_pos h3]; simp [h3]
      · rw [if_neg h3]; simp [h3]

theorem table_given {ds : List HorizonDef} {m : Horizons} (h : loadHorizons noHorizons ds = .ok m)
    {name : String} (hn : ¬ MeansDefault name) : m.table name = givenFor ds name := by
  rw [load_table ds _ m h]
  show Option.or _ none = _
  rw [Option.or_none]
  unfold givenFor
  congr 2
  funext d
  simp only [horizonKey_other hn, exists_eq_right]

theorem table_default {ds : List HorizonDef} {m : Horizons} (h : loadHorizons noHorizons ds = .ok m) :
    m.table "default" = givenDefault ds := by
  rw [load_table ds _ m h]
  show Option.or _ none = _
  rw [Option.or_none]
  unfold givenDefault
  simp only [horizonKey_default]

/-- The look-up in terms of the input. -/
theorem find_given {ds : List HorizonDef} {m : Horizons} (h : loadHorizons noHorizons ds = .ok m)
    {name : String} (hn : ¬ MeansDefault name) :
    findHorizon m name = match givenFor ds name with
      | some v => .ok v
      | none => match givenDefault ds with
        | some v => .ok v
        | none => .fail .terminate := by
  unfold findHorizon
  rw [table_given h hn, table_default h]
  cases givenFor ds name <;> rfl

theorem point_value {rtc : Compiler} {m : Horizons} {name : String} {v : HorizonValue}
    (h : findHorizon m name = .ok v) (x : Fin 3 → ℝ) :
    pointHorizon rtc m name x = horizonValue rtc v x := by
  unfold pointHorizon hasConstantHorizon constantHorizon evaluateHorizon
  rw [h]
  cases v <;> rfl

/-- **C50**: a point of a block has the horizon given by the last definition that names the block, if
there is one. -/
theorem C50_block (rtc : Compiler) (ds : List HorizonDef) (m : Horizons)
    (h : loadHorizons noHorizons ds = .ok m) (name : String) (hn : ¬ MeansDefault name) (v : HorizonValue)
    (hv : givenFor ds name = some v) (x : Fin 3 → ℝ) :
    pointHorizon rtc m name x = horizonValue rtc v x := by
  apply point_value
  rw [find_given h hn, hv]

/-- **C50**: otherwise it has the default horizon. -/
theorem C50_default (rtc : Compiler) (ds : List HorizonDef) (m : Horizons)
    (h : loadHorizons noHorizons ds = .ok m) (name : String) (hn : ¬ MeansDefault name) (v : HorizonValue)
    (hg : givenFor ds name = none) (hv : givenDefault ds = some v) (x : Fin 3 → ℝ) :
    pointHorizon rtc m name x = horizonValue rtc v x := by
  apply point_value
  rw [find_given h hn, hg, hv]

/-- **C50**: with neither the run stops. -/
theorem C50_neither (rtc : Compiler) (ds : List HorizonDef) (m : Horizons)
    (h : loadHorizons noHorizons ds = .ok m) (name : String) (hn : ¬ MeansDefault name)
    (hg : givenFor ds name = none) (hd : givenDefault ds = none) (x : Fin 3 → ℝ) :
    pointHorizon rtc m name x = .fail .terminate := by
  have : findHorizon m name = .fail .terminate := by rw [find_given h hn, hg, hd]
  unfold pointHorizon hasConstantHorizon
  rw [this]
  rfl

/-- **C50**: the input is refused exactly if some definition has no horizon that is a number or a text. -/
theorem C50_refused (ds : List HorizonDef) :
    loadHorizons noHorizons ds = .fail .runtimeError ↔ ∃ d ∈ ds, d.horizon = .missing := by
  suffices H : ∀ m, (loadHorizons m ds = .fail .runtimeError ∧ ∃ d ∈ ds, d.horizon = .missing) ∨
      ((∃ m', loadHorizons m ds = .ok m') ∧ ¬ ∃ d ∈ ds, d.horizon = .missing) by
    rcases H noHorizons with ⟨h1, h2⟩ | ⟨⟨m', h1⟩, h2⟩
    · exact ⟨fun _ => h2, fun _ => h1⟩
    · exact ⟨fun e => absurd (h1.symm.trans e) (by simp), fun e => absurd e h2⟩
  induction ds with
  | nil => exact fun m => Or.inr ⟨⟨m, rfl⟩, by simp⟩
  | cons d ds ih =>
    intro m
    by_cases hd : d.horizon = .missing
    · refine Or.inl ⟨?_, d, by simp, hd⟩
      show (loadHorizon m d >>= fun m => List.foldlM loadHorizon m ds) = _
      have : loadHorizon m d = .fail .runtimeError := by unfold loadHorizon; rw [hd]
      rw [this]; rfl
    · have : ∃ m1, loadHorizon m d = .ok m1 := by
        unfold loadHorizon
        cases hv : d.horizon with
        | missing => exact absurd hv hd
        | constant a => exact ⟨_, rfl⟩
        | formula a => exact ⟨_, rfl⟩
      obtain ⟨m1, h1⟩ := this
      have e : loadHorizons m (d :: ds) = loadHorizons m1 ds := by
        show (loadHorizon m d >>= fun m => List.foldlM loadHorizon m ds) = _
        rw [h1]; rfl
      rw [e]
      rcases ih m1 with ⟨h2, d', h3, h4⟩ | ⟨h2, h3⟩
      · exact Or.inl ⟨h2, d', by simp [h3], h4⟩
      · refine Or.inr ⟨h2, ?_⟩
        rintro ⟨d', h4, h5⟩
        rcases List.mem_cons.mp h4 with rfl | h4
        · exact hd h5
        · exact h3 ⟨d', h4, h5⟩

/-- A deck with a formula for one block, a number for another and a default. -/
def demoDeck : List HorizonDef :=
  [⟨.constant 3, ["DEFAULT"]⟩, ⟨.formula "x", ["block_1"]⟩, ⟨.constant 2, ["block_2", "block_3"]⟩]

example (rtc : Compiler) (x : Fin 3 → ℝ) : ∃ m, loadHorizons noHorizons demoDeck = .ok m ∧
    pointHorizon rtc m "block_3" x = .ok 2 ∧ pointHorizon rtc m "block_4" x = .ok 3 := by
  refine ⟨_, rfl, ?_, ?_⟩
  · exact C50_block rtc demoDeck _ rfl "block_3" (by simp [MeansDefault]) (.constant 2)
      (by simp [givenFor, demoDeck]) x
  · exact C50_default rtc demoDeck _ rfl "block_4" (by simp [MeansDefault]) (.constant 3)
      (by simp [givenFor, demoDeck]) (by simp [givenDefault, demoDeck, MeansDefault]) x

example (rtc : Compiler) (x : Fin 3 → ℝ) : ∃ m,
    loadHorizons noHorizons [⟨.constant 2, ["block_2"]⟩] = .ok m ∧
    pointHorizon rtc m "block_1" x = .fail .terminate := by
  refine ⟨_, rfl, ?_⟩
  exact C50_neither rtc [⟨.constant 2, ["block_2"]⟩] _ rfl "block_1" (by simp [MeansDefault])
    (by simp [givenFor]) (by simp [givenDefault, MeansDefault]) x

/-- **C50**, several runs in one process: the table is never cleared, so that a second input is read as if
it were appended to the first. -/
theorem C50_second_run (ds ds' : List HorizonDef) (m m' : Horizons)
    (h : loadHorizons noHorizons ds = .ok m) (h' : loadHorizons m ds' = .ok m') :
    loadHorizons noHorizons (ds ++ ds') = .ok m' :=
  BC.foldlM_append_ok.mpr ⟨m, h, h'⟩

/-- The second input gives no horizon for the block, yet the run goes on with that of the first. -/
example (rtc : Compiler) (x : Fin 3 → ℝ) : ∃ m m', loadHorizons noHorizons demoDeck = .ok m ∧
    loadHorizons m [] = .ok m' ∧ pointHorizon rtc m' "block_3" x = .ok 2 := by
  refine ⟨_, _, rfl, rfl, ?_⟩
  exact C50_block rtc demoDeck _ rfl "block_3" (by simp [MeansDefault]) (.constant 2)
    (by simp [givenFor, demoDeck]) x

end Verif.Params
