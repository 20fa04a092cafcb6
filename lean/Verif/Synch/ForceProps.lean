import Verif.Synch.Lemmas

/-!
# Property C204: the internal force for an external driver
-/

namespace Verif.Synch

open Verif Verif.Assembly

theorem mem_of_lookup' {α : Type} (part : List (Nat × α)) (g : Nat) (v : α) (h : part.lookup g = some v) :
    (g, v) ∈ part := by
  induction part with
  | nil => cases h
  | cons e part ih =>
    obtain ⟨k, w⟩ := e
    rw [List.lookup_cons] at h
    by_cases hk : g = k
    · subst hk
      simp only [beq_self_eq_true, Option.some.injEq] at h
      subst h
      exact List.mem_cons_self
    · rw [beq_eq_false_iff_ne.2 hk] at h
      exact List.mem_cons_of_mem _ (ih h)

theorem finite_lookup (d : Assembly.Dist Vec) (h : Finite d) (p g : Nat) (a : Vec)
    (hl : Assembly.lookup d p g = some a) (i : Fin 3) : a i ≠ ⊤ := by
  unfold Assembly.lookup at hl
  rw [Option.bind_eq_some_iff] at hl
  obtain ⟨part, hp, hl⟩ := hl
  exact h part (List.mem_of_getElem? hp) _ (mem_of_lookup' part g a hl) i

theorem lookup_zipWith {α β γ : Type} (f : α → β → γ) (x : List (Nat × α)) (y : List (Nat × β))
    (h : y.map Prod.fst = x.map Prod.fst) (g : Nat) (a : α) (b : β) (hx : x.lookup g = some a)
    (hy : y.lookup g = some b) :
    (List.zipWith (fun e v => (e.1, f e.2 v.2)) x y).lookup g = some (f a b) := by
  induction x generalizing y with
  | nil => cases hx
  | cons e x ih =>
    cases y with
    | nil => cases hy
    | cons e' y =>
      obtain ⟨k, a'⟩ := e
      obtain ⟨k', b'⟩ := e'
      simp only [List.map_cons, List.cons.injEq] at h
      obtain ⟨rfl, h⟩ := h
      rw [List.lookup_cons] at hx hy
      rw [List.zipWith_cons_cons, List.lookup_cons]
      by_cases hk : g = k'
      · subst hk
        simp only [beq_self_eq_true, Option.some.injEq] at hx hy ⊢
        rw [hx, hy]
      · rw [beq_eq_false_iff_ne.2 hk] at hx hy ⊢
        exact ih y h hx hy

theorem lookup_timesVolume (force : Assembly.Dist Vec) (volume : Assembly.Dist ℝ) (h : ids volume = ids force)
    (p g : Nat) (a : Vec) (v : ℝ) (ha : Assembly.lookup force p g = some a)
    (hv : Assembly.lookup volume p g = some v) :
    Assembly.lookup (timesVolume force volume) p g = some fun i => WithTop.map (· * v) (a i) := by
  unfold Assembly.lookup at *
  rw [Option.bind_eq_some_iff] at ha hv
  obtain ⟨x, hx, hxl⟩ := ha
  obtain ⟨y, hy, hyl⟩ := hv
  have hids : y.map Prod.fst = x.map Prod.fst := by
    have h1 := congrArg (·[p]?) h
    simp only [ids, List.getElem?_map, hx, hy, Option.map_some, Option.some.injEq] at h1
    exact h1
  unfold timesVolume
  rw [List.getElem?_zipWith, hx, hy]
  simp only [Option.bind_some]
  exact lookup_zipWith (fun (a : Vec) (v : ℝ) => fun i => WithTop.map (· * v) (a i)) x y hids g a v hxl hyl

theorem ids_gather (x : Assembly.Dist Vec) (fs : List (BlockField Vec)) : ids (gather x fs) = ids x := by
  rw [gather_shift]
  unfold ids shift zeroOut
  apply List.ext_getElem
  · simp
  · intro i h1 h2
    simp [Function.comp_def]

theorem sum_ne_top (l : List Vec) (i : Fin 3) : l.sum i ≠ ⊤ ↔ ∀ v ∈ l, v i ≠ ⊤ := by
  induction l with
  | nil => simp
  | cons v l ih =>
    rw [List.sum_cons, Pi.add_apply, WithTop.add_ne_top, ih]
    simp

/-- C204: if `computeInternalForce` returns, the force at an owned point is its volume times the sum of the force
densities any block on any processor stored for it, and all these numbers are finite. -/
theorem C204_force (eval : List (Block Vec) → Outcome (List (Block Vec))) (m : Mother) (blocks : List (Block Vec))
    (force : Assembly.Dist Vec) (bs : List (Block Vec))
    (h : computeInternalForce false eval m blocks = .ok (force, bs))
    (hv : ∀ b ∈ bs, ValidPick m.x (b.field "Force_Density" .np1)) (hm : ids m.volume = ids m.x) (p g : Nat) (vol : ℝ)
    (hl : Assembly.lookup m.volume p g = some vol) :
    (∀ f ∈ contributions (bs.map (·.field "Force_Density" .np1)) g, ∀ i, f i ≠ ⊤) ∧
    ∃ density : Fin 3 → ℝ,
      (∀ i, (contributions (bs.map (·.field "Force_Density" .np1)) g).sum i = (density i : Num)) ∧
      Assembly.lookup force p g = some fun i => ((density i * vol : ℝ) : Num) := by
  unfold computeInternalForce at h
  simp only [Bool.false_eq_true, if_false] at h
  split at h
  · cases h
  rw [Outcome.bind_eq_ok] at h
  obtain ⟨bs', -, h⟩ := h
  split at h
  · cases h
  rename_i hfin
  have hfin' := not_not.1 hfin
  simp only [Outcome.ok.injEq, Prod.mk.injEq] at h
  obtain ⟨rfl, rfl⟩ := h
  have ho : Owns m.x p g := by
    obtain ⟨part, hp, hg⟩ := lookup_owns m.volume p g vol hl
    have h1 := congrArg (·[p]?) hm
    simp only [ids, List.getElem?_map, hp, Option.map_some] at h1
    obtain ⟨part', hp', he⟩ := Option.map_eq_some_iff.1 h1.symm
    exact ⟨part', hp', he ▸ hg⟩
  have hv' : ∀ f ∈ bs'.map (·.field "Force_Density" .np1), ValidPick m.x f := by
    intro f hf
    obtain ⟨b, hb, rfl⟩ := List.mem_map.1 hf
    exact hv b hb
  have ht := C12_total m.x _ hv' p g ho
  have hne := finite_lookup _ hfin' p g _ ht
  refine ⟨fun f hf i => (sum_ne_top _ i).1 (hne i) f hf, ?_⟩
  refine ⟨fun i => ((contributions (bs'.map (·.field "Force_Density" .np1)) g).sum i).untop (hne i),
    fun i => (WithTop.coe_untop _ _).symm, ?_⟩
  rw [lookup_timesVolume _ m.volume (by rw [ids_gather, hm]) p g _ vol ht hl]
  congr 1
  funext i
  conv_lhs => rw [← WithTop.coe_untop _ (hne i)]
  rw [WithTop.map_coe]

/-- C204: the evaluation is made with the vectors of the driver in every copy of every point, and all other data as they
were. -/
theorem C204_sees (eval : List (Block Vec) → Outcome (List (Block Vec))) (m : Mother) (blocks : List (Block Vec))
    (force : Assembly.Dist Vec) (bs : List (Block Vec))
    (h : computeInternalForce false eval m blocks = .ok (force, bs)) :
    ∃ bs0, eval bs0 = .ok bs ∧
      (∀ (name field : String) (src : Assembly.Dist Vec) (p g : Nat) (v : Vec),
        (name, src) ∈ [("u", m.u), ("y", m.y), ("v", m.v)] →
        (name, field) ∈ [("u", "Displacement"), ("y", "Coordinates"), ("v", "Velocity")] →
        (∀ b ∈ blocks, ValidPick src (b.field field .np1)) → Assembly.lookup src p g = some v →
        EveryCopy bs0 field .np1 g v) ∧
      (∀ (name field : String) (src : Assembly.Dist Vec) (p g : Nat) (v : Vec),
        (name, field) ∈ [("temperature", "Temperature"), ("deltaTemperature", "Temperature_Change")] →
        m.others name = some src →
        (∀ b ∈ blocks, ValidPick src (b.field field .np1)) → Assembly.lookup src p g = some v →
        EveryCopy bs0 field .np1 g v) ∧
      ∀ field step, field ∉ ["Displacement", "Coordinates", "Velocity", "Temperature", "Temperature_Change",
        "Concentration"] ∨ step ≠ .np1 → bs0.map (·.field field step) = blocks.map (·.field field step) := by
  unfold computeInternalForce at h
  simp only [Bool.false_eq_true, if_false] at h
  split at h
  · cases h
  rw [Outcome.bind_eq_ok] at h
  obtain ⟨bs', heval, h⟩ := h
  split at h
  · cases h
  simp only [Outcome.ok.injEq, Prod.mk.injEq] at h
  obtain ⟨-, rfl⟩ := h
  have key : ∀ (name field : String) (src : Assembly.Dist Vec) (p g : Nat) (v : Vec), (name, field) ∈ forceTable →
      m.globals name = some src → (∀ b ∈ blocks, ValidPick src (b.field field .np1)) →
      Assembly.lookup src p g = some v →
      EveryCopy (blocks.map (·.importAll m.globals forceTable)) field .np1 g v := by
    intro name field src p g v ht hs hv hl b hb q w hw
    obtain ⟨b0, hb0, rfl⟩ := List.mem_map.1 hb
    rw [importAll_same b0 _ _ name field (by decide) ht, hs] at hw
    simp only at hw
    rw [copy_importInsert] at hw
    obtain ⟨v0, -, rfl⟩ := hw
    rw [hv b0 hb0 q g p (lookup_owns src p g v hl), hl]
    rfl
  refine ⟨_, heval, ?_, ?_, ?_⟩
  · intro name field src p g v hsrc hf hv hl
    have hs : m.globals name = some src := by
      simp only [List.mem_cons, Prod.mk.injEq, List.not_mem_nil, or_false] at hsrc
      rcases hsrc with ⟨rfl, rfl⟩ | ⟨rfl, rfl⟩ | ⟨rfl, rfl⟩ <;> simp [Mother.globals]
    refine key name field src p g v ?_ hs hv hl
    simp only [List.mem_cons, Prod.mk.injEq, List.not_mem_nil, or_false] at hf
    rcases hf with ⟨rfl, rfl⟩ | ⟨rfl, rfl⟩ | ⟨rfl, rfl⟩ <;> decide
  · intro name field src p g v hf hs hv hl
    simp only [List.mem_cons, Prod.mk.injEq, List.not_mem_nil, or_false] at hf
    rcases hf with ⟨rfl, rfl⟩ | ⟨rfl, rfl⟩
    · exact key "temperature" _ src p g v (by decide) (by simpa [Mother.globals] using hs) hv hl
    · exact key "deltaTemperature" _ src p g v (by decide) (by simpa [Mother.globals] using hs) hv hl
  · intro field step hf
    rw [List.map_map]
    apply List.map_congr_left
    intro b _
    exact importAll_other b _ _ _ _ hf

/-- C204: an analysis with multiphysics is refused, and so are vectors that are not finite. -/
theorem C204_refused (eval : List (Block Vec) → Outcome (List (Block Vec))) (m : Mother) (blocks : List (Block Vec)) :
    computeInternalForce true eval m blocks = .fail .runtimeError ∧
      ((∃ d ∈ [m.x, m.u, m.y, m.v], ∃ part ∈ d, ∃ e ∈ part, ∃ i, e.2 i = ⊤) →
        computeInternalForce false eval m blocks = .fail .terminate) := by
  constructor
  · simp [computeInternalForce]
  · rintro ⟨d, hd, part, hp, e, he, i, hi⟩
    unfold computeInternalForce
    simp only [Bool.false_eq_true, if_false]
    rw [if_pos]
    rintro ⟨h1, h2, h3, h4⟩
    simp only [List.mem_cons, List.not_mem_nil, or_false] at hd
    rcases hd with rfl | rfl | rfl | rfl
    · exact h1 part hp e he i hi
    · exact h2 part hp e he i hi
    · exact h3 part hp e he i hi
    · exact h4 part hp e he i hi

/-- C204: with finite vectors, an evaluation that returns and finite force densities at all copies of owned points, the
call returns. -/
theorem C204_returns (eval : List (Block Vec) → Outcome (List (Block Vec))) (m : Mother) (blocks : List (Block Vec))
    (hf : Finite m.x ∧ Finite m.u ∧ Finite m.y ∧ Finite m.v) (bs : List (Block Vec))
    (he : eval (blocks.map (·.importAll m.globals forceTable)) = .ok bs)
    (hv : ∀ b ∈ bs, ValidPick m.x (b.field "Force_Density" .np1))
    (hc : ∀ p g, Owns m.x p g → ∀ f ∈ contributions (bs.map (·.field "Force_Density" .np1)) g, ∀ i, f i ≠ ⊤) :
    ∃ force, computeInternalForce false eval m blocks = .ok (force, bs) := by
  unfold computeInternalForce
  simp only [Bool.false_eq_true, if_false]
  rw [if_neg (not_not.2 hf), he]
  simp only [Outcome.ok_bind]
  have hv' : ∀ f ∈ bs.map (·.field "Force_Density" .np1), ValidPick m.x f := by
    intro f hf
    obtain ⟨b, hb, rfl⟩ := List.mem_map.1 hf
    exact hv b hb
  rw [if_neg (not_not.2 ?_)]
  · exact ⟨_, rfl⟩
  · intro part hp e hep i
    rw [gather_shift] at hp
    obtain ⟨p, hlt, rfl⟩ := List.getElem_of_mem hp
    simp only [shift, List.getElem_mapIdx, zeroOut, List.getElem_map, List.map_map, List.mem_map,
      Function.comp_apply] at hep
    obtain ⟨e0, he0, rfl⟩ := hep
    have ho : Owns m.x p e0.1 := ⟨_, List.getElem?_eq_getElem _, List.mem_map.2 ⟨e0, he0, rfl⟩⟩
    simp only
    rw [zero_add]
    have hsum := sum_contributions _ m.x p e0.1 hv' ho
    rw [List.map_map] at hsum
    rw [hsum, sum_ne_top]
    exact fun f hf' => hc p e0.1 ho f hf' i

/-- A driver with one point of volume 2 and an evaluation that gives it the force density 3 in all directions. -/
def demoMother : Mother where
  x := [[(7, 0)]]
  u := [[(7, fun _ => ((1 : ℝ) : Num))]]
  y := [[(7, fun _ => ((1 : ℝ) : Num))]]
  v := [[(7, 0)]]
  volume := [[(7, 2)]]
  others := fun _ => none

/-- The evaluation of the example. -/
def demoEval : List (Block Vec) → Outcome (List (Block Vec)) := fun bs =>
  .ok (bs.map fun b => b.put "Force_Density" .np1 ⟨some [[(7, fun _ => ((3 : ℝ) : Num))]], fun _ _ => 0⟩)

/-- The block of the example. -/
def demoForceBlock : Block Vec := ⟨fun _ _ => ⟨some [[(7, 0)]], fun _ _ => 0⟩⟩

example : ∃ force bs, computeInternalForce false demoEval demoMother [demoForceBlock] = .ok (force, bs) ∧
    (∀ b ∈ bs, ValidPick demoMother.x (b.field "Force_Density" .np1)) ∧ ids demoMother.volume = ids demoMother.x ∧
    Assembly.lookup demoMother.volume 0 7 = some 2 := by
  have hpick : ∀ (d : Option (Assembly.Dist Vec)), ValidPick demoMother.x ⟨d, fun _ _ => 0⟩ := by
    intro d q g p ho
    obtain ⟨part, hp, -⟩ := ho
    match p, hp with
    | 0, _ => rfl
    | n + 1, hp => simp [demoMother] at hp
  have hb : ∀ b ∈ (([demoForceBlock].map (·.importAll demoMother.globals forceTable)).map fun b : Block Vec =>
      b.put "Force_Density" .np1 ⟨some [[(7, fun _ => ((3 : ℝ) : Num))]], fun _ _ => 0⟩),
      ValidPick demoMother.x (b.field "Force_Density" .np1) := by
    intro b hb
    obtain ⟨b0, -, rfl⟩ := List.mem_map.1 hb
    simp only [Block.put, and_self, if_true]
    exact hpick _
  obtain ⟨force, h⟩ := C204_returns demoEval demoMother [demoForceBlock]
    (by refine ⟨?_, ?_, ?_, ?_⟩ <;> · simp [Finite, demoMother]) _ rfl hb (by
      intro p g _ f hf i
      simp only [List.map_cons, List.map_nil, Block.put, and_self, if_true, contributions, List.flatMap_cons,
        List.flatMap_nil, Option.getD_some, List.append_nil] at hf
      obtain ⟨e, he, rfl⟩ := List.mem_map.1 hf
      have := (List.mem_filter.1 he).1
      simp only [List.mem_cons, List.not_mem_nil, or_false] at this
      subst this
      exact WithTop.coe_ne_top)
  exact ⟨force, _, h, hb, rfl, rfl⟩

end Verif.Synch
