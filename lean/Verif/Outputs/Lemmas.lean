import Verif.Outputs.Spec
import Mathlib.Algebra.BigOperators.Group.List.Basic
import Mathlib.Order.Bounds.Basic
import Mathlib.Tactic.Linarith

/-! Helper lemmas for the global outputs. -/

noncomputable section

namespace Verif.Outputs

open Verif Verif.Mech
open scoped Classical

theorem collect_eq {α β : Type} {f : α → Outcome β} {g : α → β} : ∀ {l : List α},
    (∀ a ∈ l, f a = .ok (g a)) → collect f l = .ok (l.map g)
  | [], _ => rfl
  | a :: as, h => by
    have h1 := collect_eq (f := f) (g := g) (l := as) fun x hx => h x (List.mem_cons_of_mem _ hx)
    rw [collect, h a (by simp), h1]
    rfl

theorem collect_ok {α β : Type} {f : α → Outcome β} : ∀ {l : List α} {bs : List β},
    collect f l = .ok bs → ∀ b, b ∈ bs ↔ ∃ a ∈ l, f a = .ok b
  | [], bs, h, b => by
    rw [collect] at h
    cases h
    simp
  | a :: as, bs, h, b => by
    rw [collect] at h
    obtain ⟨x, hx, h⟩ := Outcome.bind_eq_ok.mp h
    obtain ⟨xs, hxs, h⟩ := Outcome.bind_eq_ok.mp h
    cases h
    rw [List.mem_cons, collect_ok hxs b]
    constructor
    · rintro (rfl | ⟨a', ha', e⟩)
      · exact ⟨a, by simp, hx⟩
      · exact ⟨a', by simp [ha'], e⟩
    · rintro ⟨a', ha', e⟩
      rcases List.mem_cons.mp ha' with rfl | ha'
      · rw [hx] at e
        cases e
        exact Or.inl rfl
      · exact Or.inr ⟨a', ha', e⟩

/-! ### Folds of minimum, maximum and sum -/

theorem le_foldl_min {α : Type} [LinearOrder α] {x : α} : ∀ {l : List α} {a : α},
    x ≤ l.foldl min a ↔ x ≤ a ∧ ∀ y ∈ l, x ≤ y
  | [], a => by simp
  | b :: l, a => by
    rw [List.foldl_cons, le_foldl_min, le_min_iff, List.forall_mem_cons, and_assoc]

theorem foldl_max_le {α : Type} [LinearOrder α] {x : α} : ∀ {l : List α} {a : α},
    l.foldl max a ≤ x ↔ a ≤ x ∧ ∀ y ∈ l, y ≤ x
  | [], a => by simp
  | b :: l, a => by
    rw [List.foldl_cons, foldl_max_le, max_le_iff, List.forall_mem_cons, and_assoc]

theorem foldl_min_mem {α : Type} [LinearOrder α] : ∀ {l : List α} {a : α},
    l.foldl min a = a ∨ l.foldl min a ∈ l
  | [], a => Or.inl rfl
  | b :: l, a => by
    rw [List.foldl_cons]
    rcases foldl_min_mem (l := l) (a := min a b) with h | h
    · rcases min_choice a b with e | e
      · exact Or.inl (h.trans e)
      · exact Or.inr (by rw [h, e]; simp)
    · exact Or.inr (List.mem_cons_of_mem _ h)

theorem foldl_max_mem {α : Type} [LinearOrder α] : ∀ {l : List α} {a : α},
    l.foldl max a = a ∨ l.foldl max a ∈ l
  | [], a => Or.inl rfl
  | b :: l, a => by
    rw [List.foldl_cons]
    rcases foldl_max_mem (l := l) (a := max a b) with h | h
    · rcases max_choice a b with e | e
      · exact Or.inl (h.trans e)
      · exact Or.inr (by rw [h, e]; simp)
    · exact Or.inr (List.mem_cons_of_mem _ h)

theorem foldl_add {α : Type} [AddMonoid α] : ∀ {l : List α} {a : α}, l.foldl (· + ·) a = a + l.sum
  | [], a => by simp
  | b :: l, a => by rw [List.foldl_cons, foldl_add, List.sum_cons, add_assoc]

theorem minAll_ok {α : Type} [LinearOrder α] {l : List α} (h : l ≠ []) :
    ∃ r, minAll l = .ok r ∧ r ∈ l ∧ ∀ x ∈ l, r ≤ x := by
  cases l with
  | nil => exact absurd rfl h
  | cons a as =>
    refine ⟨as.foldl min a, rfl, ?_, ?_⟩
    · rcases foldl_min_mem (l := as) (a := a) with e | e
      · rw [e]; simp
      · exact List.mem_cons_of_mem _ e
    · have := (le_foldl_min (l := as) (a := a)).mp le_rfl
      exact List.forall_mem_cons.mpr this

theorem maxAll_ok {α : Type} [LinearOrder α] {l : List α} (h : l ≠ []) :
    ∃ r, maxAll l = .ok r ∧ r ∈ l ∧ ∀ x ∈ l, x ≤ r := by
  cases l with
  | nil => exact absurd rfl h
  | cons a as =>
    refine ⟨as.foldl max a, rfl, ?_, ?_⟩
    · rcases foldl_max_mem (l := as) (a := a) with e | e
      · rw [e]; simp
      · exact List.mem_cons_of_mem _ e
    · have := (foldl_max_le (l := as) (a := a)).mp le_rfl
      exact List.forall_mem_cons.mpr this

theorem sumAll_ok {α : Type} [AddMonoid α] {l : List α} (h : l ≠ []) : sumAll l = .ok l.sum := by
  cases l with
  | nil => exact absurd rfl h
  | cons a as => rw [sumAll, foldl_add, List.sum_cons]

theorem step_min : Calc.step .minimum = min := by
  funext a b
  rw [Calc.step, min_def]
  split
  · rename_i h
    rw [if_neg (not_le.mpr h)]
  · rename_i h
    rw [if_pos (not_lt.mp h)]

theorem step_max : Calc.step .maximum = max := by
  funext a b
  rw [Calc.step, max_def]
  split
  · rename_i h
    rw [if_pos (le_of_lt h)]
  · rename_i h
    split
    · exact le_antisymm ‹_› (not_lt.mp h)
    · rfl

theorem step_sum : Calc.step .sum = fun a b : ℝ => a + b := rfl

/-- The collective operation on the local results is the local treatment of all values. -/
theorem all_eq (k : Calc) {L : List (List ℝ)} (h : L ≠ []) :
    k.all (L.map fun l => l.foldl k.step k.start) = .ok (L.flatten.foldl k.step k.start) := by
  have hne : (L.map fun l => l.foldl k.step k.start) ≠ [] := by simpa using h
  cases k with
  | minimum =>
    obtain ⟨r, hr, hm, hl⟩ := minAll_ok hne
    rw [Calc.all, hr, step_min]
    rw [step_min] at hm hl
    congr 1
    refine eq_of_forall_le_iff fun x => ?_
    obtain ⟨l, hl', e⟩ := List.mem_map.mp hm
    rw [le_foldl_min]
    constructor
    · intro hx
      have hx' : x ≤ Calc.start .minimum := by
        rw [← e, le_foldl_min] at hx
        exact hx.1
      refine ⟨hx', fun y hy => ?_⟩
      obtain ⟨l', hl'', hy⟩ := List.mem_flatten.mp hy
      have := hl _ (List.mem_map_of_mem hl'')
      exact (le_foldl_min.mp (hx.trans this)).2 y hy
    · rintro ⟨h1, h2⟩
      rw [← e, le_foldl_min]
      exact ⟨h1, fun y hy => h2 y (List.mem_flatten.mpr ⟨l, hl', hy⟩)⟩
  | maximum =>
    obtain ⟨r, hr, hm, hl⟩ := maxAll_ok hne
    rw [Calc.all, hr, step_max]
    rw [step_max] at hm hl
    congr 1
    refine eq_of_forall_ge_iff fun x => ?_
    obtain ⟨l, hl', e⟩ := List.mem_map.mp hm
    rw [foldl_max_le]
    constructor
    · intro hx
      have hx' : Calc.start .maximum ≤ x := by
        rw [← e, foldl_max_le] at hx
        exact hx.1
      refine ⟨hx', fun y hy => ?_⟩
      obtain ⟨l', hl'', hy⟩ := List.mem_flatten.mp hy
      have := hl _ (List.mem_map_of_mem hl'')
      exact (foldl_max_le.mp (this.trans hx)).2 y hy
    · rintro ⟨h1, h2⟩
      rw [← e, foldl_max_le]
      exact ⟨h1, fun y hy => h2 y (List.mem_flatten.mpr ⟨l, hl', hy⟩)⟩
  | sum =>
    rw [Calc.all, sumAll_ok hne, step_sum, foldl_add, List.sum_flatten]
    congr 1
    rw [show Calc.start .sum = (0 : ℝ) from rfl, zero_add]
    congr 1
    refine List.map_congr_left fun l _ => ?_
    rw [foldl_add, zero_add]

/-! ### Blocks and node sets -/

theorem foldl_last {name : String} : ∀ {blocks : List Piece} {a : Int},
    (∃ b ∈ blocks, b.name = name) → ∃ b ∈ blocks, b.name = name ∧
      blocks.foldl (fun id b => if b.name = name then b.id else id) a = b.id
  | [], a, h => by simp at h
  | b :: bs, a, h => by
    rw [List.foldl_cons]
    by_cases hs : ∃ b' ∈ bs, b'.name = name
    · obtain ⟨b', hb', hn, e⟩ := foldl_last (a := if b.name = name then b.id else a) hs
      exact ⟨b', List.mem_cons_of_mem _ hb', hn, e⟩
    · have hb : b.name = name := by
        obtain ⟨b', hb', hn⟩ := h
        rcases List.mem_cons.mp hb' with rfl | hb'
        · exact hn
        · exact absurd ⟨b', hb', hn⟩ hs
      refine ⟨b, by simp, hb, ?_⟩
      rw [if_pos hb]
      have : ∀ (l : List Piece) (x : Int), (∀ b' ∈ l, b'.name ≠ name) →
          l.foldl (fun id b => if b.name = name then b.id else id) x = x := by
        intro l
        induction l with
        | nil => intro x _; rfl
        | cons c l ih =>
          intro x hl
          rw [List.foldl_cons, if_neg (hl c (by simp))]
          exact ih x fun b' hb' => hl b' (List.mem_cons_of_mem _ hb')
      exact this bs b.id fun b' hb' hn => hs ⟨b', hb', hn⟩

theorem blockLocal_eq (k : Calc) (n c : Nat) (id : Int) (name : String) : ∀ (blocks : List Piece),
    (∀ b ∈ blocks, b.id = id ↔ b.name = name) →
    blockLocal k n c id blocks = ((blocks.filter fun b => b.name = name).flatMap fun b =>
      (List.range b.gids.length).map fun i => b.data (n * i + c)).foldl k.step k.start := by
  intro blocks h
  rw [blockLocal]
  generalize k.start = a
  induction blocks generalizing a with
  | nil => rfl
  | cons b bs ih =>
    have ih' := ih fun b' hb' => h b' (List.mem_cons_of_mem _ hb')
    rw [List.foldl_cons]
    by_cases hb : b.name = name
    · rw [if_pos ((h b (by simp)).mpr hb), List.filter_cons_of_pos (by simpa using hb), List.flatMap_cons,
        List.foldl_append, ih']
      rfl
    · rw [if_neg (fun hh => hb ((h b (by simp)).mp hh)), List.filter_cons_of_neg (by simpa using hb), ih']

theorem blockData_eq (k : Calc) (n c : Nat) {name : String} {procs : List (List Piece)} (hp : procs ≠ [])
    (h : ∀ blocks ∈ procs, Identified name blocks) :
    blockData k n c name procs = .ok ((valuesOfBlock name n c procs).foldl k.step k.start) := by
  have h1 : ∀ blocks ∈ procs, (do
      let id ← findBlock name blocks
      .ok (blockLocal k n c id blocks) : Outcome ℝ) =
      .ok (((blocks.filter fun b => b.name = name).flatMap fun b =>
        (List.range b.gids.length).map fun i => b.data (n * i + c)).foldl k.step k.start) := by
    intro blocks hb
    obtain ⟨h0, h2, h3⟩ := h blocks hb
    obtain ⟨b, hbm, hn, e⟩ := foldl_last (a := -1) h3
    have hf : findBlock name blocks = .ok b.id := by
      rw [findBlock, e, if_neg (h0 b hbm)]
    rw [hf, Outcome.ok_bind, blockLocal_eq k n c b.id name blocks]
    intro b' hb'
    rw [h2 b' hb' b hbm, hn]
  rw [blockData, collect_eq h1, Outcome.ok_bind]
  rw [valuesOfBlock, List.flatMap_def]
  rw [← all_eq k (L := procs.map fun blocks => (blocks.filter fun b => b.name = name).flatMap fun b =>
    (List.range b.gids.length).map fun i => b.data (n * i + c)) (by simpa using hp), List.map_map]
  rfl

theorem foldl_setIds_other {S : List Nat} {nm : String} : ∀ (l : List Piece) (g : String → Option (List Nat)),
    nm ∉ l.map Piece.name → l.foldl (setIds S) g nm = g nm := by
  intro l
  induction l with
  | nil => intro g _; rfl
  | cons c l ih =>
    intro g hg
    rw [List.map_cons, List.mem_cons, not_or] at hg
    rw [List.foldl_cons, ih _ hg.2, setIds, Function.update_of_ne hg.1]

theorem nodeSetIds_of_mem {S : List Nat} : ∀ {blocks : List Piece} (f : String → Option (List Nat)),
    DistinctNames blocks → ∀ b ∈ blocks, blocks.foldl (setIds S) f b.name = some (b.inNodeSet S)
  | [], _, _, b, hb => by simp at hb
  | b0 :: bs, f, hd, b, hb => by
    rw [List.foldl_cons]
    have hd' : b0.name ∉ bs.map Piece.name ∧ DistinctNames bs := List.nodup_cons.mp hd
    rcases List.mem_cons.mp hb with rfl | hb
    · rw [foldl_setIds_other _ _ hd'.1, setIds, Function.update_self]
    · exact nodeSetIds_of_mem _ hd'.2 b hb

theorem nodeSetFold (k : Calc) (n c : Nat) (ids : String → Option (List Nat)) (sel : Piece → List Nat) :
    ∀ (blocks : List Piece) (a : ℝ), (∀ b ∈ blocks, ids b.name = some (sel b)) →
    blocks.foldlM (nodeSetBlock k n c ids) a =
      .ok ((blocks.flatMap fun b => (sel b).map fun i => b.data (n * i + c)).foldl k.step a) := by
  intro blocks
  induction blocks with
  | nil => intro a _; rfl
  | cons b bs ih =>
    intro a h
    have h1 : nodeSetBlock k n c ids a b = .ok (((sel b).map fun i => b.data (n * i + c)).foldl k.step a) := by
      simp only [nodeSetBlock, h b (by simp)]
      rfl
    rw [List.foldlM_cons, h1, Outcome.ok_bind, ih _ fun b' hb' => h b' (List.mem_cons_of_mem _ hb'),
      List.flatMap_cons, List.foldl_append]

theorem nodeSetData_eq (k : Calc) (n c : Nat) {procs : List (List Nat × List Piece)} (hp : procs ≠ [])
    (h : ∀ p ∈ procs, DistinctNames p.2) :
    nodeSetData k n c procs = .ok ((valuesOfNodeSet n c procs).foldl k.step k.start) := by
  have h1 : ∀ p ∈ procs, p.2.foldlM (nodeSetBlock k n c (nodeSetIds p.1 p.2)) k.start =
      .ok ((p.2.flatMap fun b => (b.inNodeSet p.1).map fun i => b.data (n * i + c)).foldl k.step k.start) :=
    fun p hpm => nodeSetFold k n c (nodeSetIds p.1 p.2) (fun b => b.inNodeSet p.1) p.2 k.start
      fun b hb => nodeSetIds_of_mem _ (h p hpm) b hb
  rw [nodeSetData, collect_eq h1]
  rw [Outcome.ok_bind, valuesOfNodeSet, List.flatMap_def]
  rw [← all_eq k (L := procs.map fun p => p.2.flatMap fun b =>
    ((List.range b.gids.length).filter fun i => ∃ g ∈ p.1, b.gids[i]? = some g).map fun i => b.data (n * i + c))
    (by simpa using hp), List.map_map]
  rfl

/-! ### The folds as minimum, maximum and sum -/

theorem fold_minimum {l : List ℝ} (hne : l ≠ []) (h : ∀ v ∈ l, v ≤ dblMax) :
    IsLeast {v | v ∈ l} (l.foldl (Calc.step .minimum) (Calc.start .minimum)) := by
  rw [step_min]
  constructor
  · rcases foldl_min_mem (l := l) (a := Calc.start .minimum) with e | e
    · obtain ⟨v, hv⟩ := List.exists_mem_of_ne_nil l hne
      have := (le_foldl_min (l := l) (a := Calc.start .minimum)).mp le_rfl
      have h1 : dblMax ≤ v := by
        have := this.2 v hv
        rw [e] at this
        exact this
      show _ ∈ l
      rw [e, show Calc.start .minimum = v from le_antisymm h1 (h v hv)]
      exact hv
    · exact e
  · exact fun v hv => ((le_foldl_min (l := l) (a := Calc.start .minimum)).mp le_rfl).2 v hv

theorem fold_maximum {l : List ℝ} (h : ∃ v ∈ l, dblMin ≤ v) :
    IsGreatest {v | v ∈ l} (l.foldl (Calc.step .maximum) (Calc.start .maximum)) := by
  rw [step_max]
  constructor
  · rcases foldl_max_mem (l := l) (a := Calc.start .maximum) with e | e
    · obtain ⟨v, hv, hd⟩ := h
      have := (foldl_max_le (l := l) (a := Calc.start .maximum)).mp le_rfl
      have h1 : v ≤ dblMin := by
        have := this.2 v hv
        rw [e] at this
        exact this
      show _ ∈ l
      rw [e, show Calc.start .maximum = v from le_antisymm hd h1]
      exact hv
    · exact e
  · exact fun v hv => ((foldl_max_le (l := l) (a := Calc.start .maximum)).mp le_rfl).2 v hv

theorem fold_maximum_low {l : List ℝ} (h : ∀ v ∈ l, v ≤ dblMin) :
    l.foldl (Calc.step .maximum) (Calc.start .maximum) = dblMin := by
  rw [step_max]
  exact le_antisymm (foldl_max_le.mpr ⟨le_rfl, h⟩)
    ((foldl_max_le (l := l) (a := Calc.start .maximum)).mp le_rfl).1

theorem fold_sum {l : List ℝ} : l.foldl (Calc.step .sum) (Calc.start .sum) = l.sum := by
  rw [step_sum, foldl_add]
  exact zero_add _

theorem fold_perm (k : Calc) {l l' : List ℝ} (h : l.Perm l') :
    l.foldl k.step k.start = l'.foldl k.step k.start := by
  refine @List.Perm.foldl_eq _ _ _ _ _ ⟨?_⟩ h _
  intro b a a'
  cases k
  · rw [step_min]; exact min_right_comm _ _ _
  · rw [step_max]; exact max_right_comm _ _ _
  · rw [step_sum]; exact add_right_comm _ _ _

end Verif.Outputs
