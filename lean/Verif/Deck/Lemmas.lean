import Verif.Deck.Spec
import Verif.Mesh.TextLemmas
import Verif.BC.Props
import Mathlib.Tactic.Linarith
import Mathlib.Tactic.FieldSimp

/-!
# Lemmas on the section of boundary conditions
-/

noncomputable section

namespace Verif.Deck

open Verif

/-! ### Words -/

theorem toUpper_eq_blank (c : Char) : c.toUpper = ' ' ↔ c = ' ' := by
  constructor
  · intro h
    unfold Char.toUpper at h
    split at h
    · rename_i hc
      exfalso
      have h1 := congrArg Char.val h
      dsimp only at h1
      have h2 := (UInt32.add_sub_cancel c.val ('A'.val - 'a'.val)).symm
      rw [h1] at h2
      rw [h2] at hc
      exact absurd hc (by decide)
    · exact h
  · rintro rfl; decide

theorem map_upper_replicate (a : Nat) : (List.replicate a ' ').map Char.toUpper = List.replicate a ' ' := by
  rw [List.map_replicate]; rfl

theorem tight_upper {s : Text} : Mesh.Tight (s.map Char.toUpper) ↔ Mesh.Tight s := by
  constructor
  · rintro ⟨⟨c, t, h1, h2⟩, u, d, h3, h4⟩
    constructor
    · cases s with
      | nil => simp at h1
      | cons x xs =>
        refine ⟨x, xs, rfl, ?_⟩
        rintro rfl
        simp at h1
        exact h2 h1.1.symm
    · rcases List.eq_nil_or_concat s with h | ⟨xs, x, h⟩
      · subst h; simp at h1
      · subst h
        refine ⟨xs, x, by simp, ?_⟩
        rintro rfl
        simp at h3
        exact h4 h3.2.symm
  · rintro ⟨⟨c, t, h1, h2⟩, u, d, h3, h4⟩
    refine ⟨⟨c.toUpper, t.map Char.toUpper, by rw [h1]; rfl, fun h => h2 ((toUpper_eq_blank c).mp h)⟩,
      u.map Char.toUpper, d.toUpper, by rw [h3]; simp, fun h => h4 ((toUpper_eq_blank d).mp h)⟩

theorem under_upper (core : Text) :
    (core.map Char.toUpper).map (fun c => if c = ' ' then '_' else c) =
      core.map fun c => if c = ' ' then '_' else c.toUpper := by
  rw [List.map_map]
  refine List.map_congr_left fun c _ => ?_
  simp only [Function.comp_apply, toUpper_eq_blank]

theorem tidy_of_named {s : Text} {w : String} (h : Named s w) : tidy s = w.toList := by
  obtain ⟨a, core, b, rfl, ht, hw⟩ := h
  rw [tidy, List.map_append, List.map_append, map_upper_replicate, map_upper_replicate,
    Mesh.trim_tight (tight_upper.mpr ht), under_upper, hw]

theorem tight_mem {core : Text} (h : Mesh.Tight core) : ∃ c ∈ core, c ≠ ' ' := by
  obtain ⟨⟨c, t, h1, h2⟩, -⟩ := h
  exact ⟨c, by rw [h1]; simp, h2⟩

theorem named_of_mem {s : Text} (h : ∃ c ∈ s, c ≠ ' ') : Named s (String.ofList (tidy s)) := by
  obtain ⟨c, hc, hne⟩ := h
  obtain ⟨a, b, h1, h2⟩ := Mesh.trim_decompose hc hne
  refine ⟨a, Mesh.trim s, b, h1, h2, ?_⟩
  have : Named s (String.ofList ((Mesh.trim s).map fun c => if c = ' ' then '_' else c.toUpper)) :=
    ⟨a, Mesh.trim s, b, h1, h2, by simp⟩
  have h3 := tidy_of_named this
  rw [h3]; simp

theorem tidy_blank {s : Text} (h : ¬ ∃ c ∈ s, c ≠ ' ') : tidy s = List.replicate s.length '_' := by
  have hs : s = List.replicate s.length ' ' :=
    List.eq_replicate_iff.mpr ⟨rfl, fun c hc => by_contra fun hne => h ⟨c, hc, hne⟩⟩
  rw [hs]
  generalize s.length = n
  rw [tidy, map_upper_replicate, Mesh.trim, if_pos (by simp), List.map_replicate]
  simp

theorem named_mem {s : Text} {w : String} (h : Named s w) : ∃ c ∈ s, c ≠ ' ' := by
  obtain ⟨a, core, b, rfl, ht, -⟩ := h
  obtain ⟨c, hc, hne⟩ := tight_mem ht
  exact ⟨c, by simp [hc], hne⟩

/-- For a word that is not made of underscores only. -/
theorem named_iff {s : Text} {w : String} (hw : ∃ c ∈ w.toList, c ≠ '_') : Named s w ↔ tidy s = w.toList := by
  refine ⟨tidy_of_named, fun h => ?_⟩
  by_cases hs : ∃ c ∈ s, c ≠ ' '
  · have := named_of_mem hs
    rw [h] at this
    simpa using this
  · exfalso
    rw [tidy_blank hs] at h
    obtain ⟨c, hc, hne⟩ := hw
    rw [← h] at hc
    exact hne (List.eq_of_mem_replicate hc)

theorem named_unique {s : Text} {w w' : String} (h : Named s w) (h' : Named s w') : w = w' :=
  String.toList_inj.mp ((tidy_of_named h).symm.trans (tidy_of_named h'))

theorem isSetName_iff (name : Text) : isSetName name = true ↔ NamesSet name := by
  refine (decide_eq_true_iff (p := "NODE_SET".toList <:+: tidy name)).trans ⟨?_, ?_⟩
  · rintro ⟨a, b, h⟩
    have hm : ∃ c ∈ name, c ≠ ' ' := by
      by_contra hn
      rw [tidy_blank hn] at h
      have : 'N' ∈ List.replicate name.length '_' := by
        rw [← h]; exact List.mem_append_left _ (List.mem_append_right _ (by decide))
      exact absurd (List.eq_of_mem_replicate this) (by decide)
    exact ⟨String.ofList (tidy name), a, b, named_of_mem hm, by rw [String.toList_ofList, ← h]⟩
  · rintro ⟨w, a, b, h1, h2⟩
    rw [tidy_of_named h1, h2]
    exact ⟨a, b, rfl⟩

theorem lookUp_ok {α : Type} {words : List (String × α)} {s : Text} {a : α}
    (hw : ∀ w ∈ words, ∃ c ∈ w.1.toList, c ≠ '_') (h : lookUp words s = .ok a) :
    ∃ w ∈ words, Named s w.1 ∧ w.2 = a := by
  rw [lookUp] at h
  split at h
  · rename_i w hf
    have h1 := List.mem_of_find?_eq_some hf
    have h2 := List.find?_some hf
    exact ⟨w, h1, (named_iff (hw w h1)).mpr (of_decide_eq_true h2).symm, Outcome.ok.inj h⟩
  · simp at h

theorem lookUp_of {α : Type} {words : List (String × α)} {s : Text} {w : String × α} (hm : w ∈ words)
    (hu : ∀ v ∈ words, v.1 = w.1 → v = w) (h : Named s w.1) : lookUp words s = .ok w.2 := by
  rw [lookUp]
  have ht := tidy_of_named h
  split
  · rename_i v hf
    have h1 := List.mem_of_find?_eq_some hf
    have h2 : v.1.toList = tidy s := by simpa using List.find?_some hf
    have : v.1 = w.1 := String.toList_inj.mp (by rw [h2, ht])
    rw [hu v h1 this]
  · rename_i hf
    have := List.find?_eq_none.mp hf w hm
    exact absurd (decide_eq_true ht.symm) this

theorem lookUp_fails {α : Type} {words : List (String × α)} {s : Text} (h : ∀ w ∈ words, ¬ Named s w.1)
    (hw : ∀ w ∈ words, ∃ c ∈ w.1.toList, c ≠ '_') : lookUp words s = .fail .runtimeError := by
  rw [lookUp]
  split
  · rename_i w hf
    have h1 := List.mem_of_find?_eq_some hf
    have h2 : w.1.toList = tidy s := by simpa using List.find?_some hf
    exact absurd ((named_iff (hw w h1)).mpr h2.symm) (h w h1)
  · rfl

theorem typeWords_proper : ∀ w ∈ typeWords, ∃ c ∈ w.1.toList, c ≠ '_' := by decide

theorem coordinateWords_proper : ∀ w ∈ coordinateWords, ∃ c ∈ w.1.toList, c ≠ '_' := by decide

theorem typeWords_unique : ∀ w ∈ typeWords, ∀ v ∈ typeWords, v.1 = w.1 → v = w := by decide

theorem coordinateWords_unique : ∀ w ∈ coordinateWords, ∀ v ∈ coordinateWords, v.1 = w.1 → v = w := by decide

theorem typeWords_spec : ∀ w ∈ typeWords, w.1 = w.2.elim "NO_SUCH_BOUNDARY_CONDITION_TYPE" typeWord := by decide

theorem typeWord_mem (t : BC.BCType) : (typeWord t, some t) ∈ typeWords := by cases t <;> decide

theorem coordinateWords_spec : ∀ w ∈ coordinateWords, w.1 = w.2.elim "NO_SUCH_SPATIAL_COORDINATE" axisWord := by decide

theorem axisWord_mem (k : Fin 3) : (axisWord k, some k) ∈ coordinateWords := by revert k; decide

theorem lookUp_type {s : Text} {t : BC.BCType} : lookUp typeWords s = .ok (some t) ↔ Named s (typeWord t) := by
  constructor
  · intro h
    obtain ⟨w, h1, h2, h3⟩ := lookUp_ok typeWords_proper h
    have := typeWords_spec w h1
    rw [h3] at this
    rw [this] at h2
    exact h2
  · intro h
    exact lookUp_of (typeWord_mem t) (typeWords_unique _ (typeWord_mem t)) h

theorem lookUp_noType {s : Text} :
    lookUp typeWords s = .ok none ↔ Named s "NO_SUCH_BOUNDARY_CONDITION_TYPE" := by
  constructor
  · intro h
    obtain ⟨w, h1, h2, h3⟩ := lookUp_ok typeWords_proper h
    have := typeWords_spec w h1
    rw [h3] at this
    rw [this] at h2
    exact h2
  · intro h
    have hm : ("NO_SUCH_BOUNDARY_CONDITION_TYPE", (none : Option BC.BCType)) ∈ typeWords := by decide
    exact lookUp_of hm (typeWords_unique _ hm) h

theorem lookUp_coordinate {s : Text} {k : Fin 3} :
    lookUp coordinateWords s = .ok (some k) ↔ Named s (axisWord k) := by
  constructor
  · intro h
    obtain ⟨w, h1, h2, h3⟩ := lookUp_ok coordinateWords_proper h
    have := coordinateWords_spec w h1
    rw [h3] at this
    rw [this] at h2
    exact h2
  · intro h
    exact lookUp_of (axisWord_mem k) (coordinateWords_unique _ (axisWord_mem k)) h

end Verif.Deck
