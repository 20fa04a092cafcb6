import Verif.Outputs.FieldsSpec
import Verif.Mech.Lemmas
import Verif.Explicit.Lemmas

/-! Lemmas for C99 to C102. -/

noncomputable section

namespace Verif.Outputs

open Verif Verif.Neigh
open scoped Classical

/-! ### Schedule -/

/-- The condition for the call with the number `n`, counted from zero. -/
def Sel (M : Manager) (n : Nat) : Prop :=
  M.first ≤ n + 1 ∧ (n : Int) ≤ M.last ∧ 0 < M.frequency ∧ M.frequency ∣ n

theorem write_ok {M : Manager} (hi : M.iWrite = true) {n : Nat} (hc : M.count = n)
    (hn : (n : Int) < Explicit.intMax) (hl : M.last < Explicit.intMax) (t : ℝ) :
    M.write t = .ok (if Sel M n then
      ({ M with count := n + 1, exodusCount := M.exodusCount + 1 }, [(M.exodusCount + 1, t)])
      else ({ M with count := n + 1 }, [])) := by
  unfold Manager.write
  rw [if_neg (by rw [hi]; simp), if_neg (by rw [hc]; omega)]
  rw [hc]
  unfold Manager.skips
  simp only
  by_cases h1 : (n : Int) + 1 < M.first
  · rw [if_pos h1, Outcome.ok_bind, if_pos rfl, if_neg]
    intro h
    exact absurd h.1 (by omega)
  · rw [if_neg h1, if_neg (by omega), Outcome.ok_bind]
    have hs : (decide (M.last + 1 < (n : Int) + 1 ∨ M.frequency ≤ 0 ∨
        ((n : Int) + 1 - 1).tmod M.frequency ≠ 0) = true) ↔ ¬ Sel M n := by
      rw [decide_eq_true_iff]
      unfold Sel
      have e : (n : Int) + 1 - 1 = n := by ring
      rw [e, ne_eq, ← Int.dvd_iff_tmod_eq_zero]
      constructor
      · rintro (h | h | h) ⟨g1, g2, g3, g4⟩
        · omega
        · omega
        · exact h g4
      · intro h
        by_contra h'
        simp only [not_or, not_lt, not_le, not_not] at h'
        exact h ⟨by omega, by omega, h'.2.1, h'.2.2⟩
    by_cases hS : Sel M n
    · rw [if_pos hS, if_neg (by rw [hs]; simpa using hS)]
    · rw [if_neg hS, if_pos (hs.2 hS)]

theorem writes_ok (ts : List ℝ) {M : Manager} (hi : M.iWrite = true) {n e : Nat} (hc : M.count = n)
    (he : M.exodusCount = e) (hn : (n : Int) + ts.length ≤ Explicit.intMax)
    (hl : M.last < Explicit.intMax) :
    M.writes ts = .ok
      ({ M with count := n + ts.length,
                exodusCount := e + ((ts.zipIdx n).filter fun x => Sel M x.2).length },
       ((((ts.zipIdx n).filter fun x => Sel M x.2).map Prod.fst).zipIdx e).map
        fun x => ((x.2 : Int) + 1, x.1)) := by
  induction ts generalizing M n e with
  | nil => simp [Manager.writes, ← hc, ← he]
  | cons t ts ih =>
    rw [List.length_cons] at hn
    push_cast at hn
    rw [Manager.writes, write_ok hi hc (by omega) hl, Outcome.ok_bind]
    by_cases hS : Sel M n
    · rw [if_pos hS]
      simp only
      rw [ih (M := { M with count := n + 1, exodusCount := M.exodusCount + 1 }) (n := n + 1) (e := e + 1) hi
        (by push_cast; rfl) (by simp [he]) (by push_cast; omega) hl, Outcome.ok_bind]
      have hf : ((t :: ts).zipIdx n).filter (fun x => Sel M x.2) =
          (t, n) :: (ts.zipIdx (n + 1)).filter fun x => Sel M x.2 := by
        rw [List.zipIdx_cons, List.filter_cons_of_pos (by simpa using hS)]
      rw [hf]
      simp only [List.map_cons, List.zipIdx_cons, List.length_cons]
      congr 2
      · congr 1
        · push_cast; ring
        · push_cast
          have : ∀ x : Nat, Sel { M with count := n + 1, exodusCount := M.exodusCount + 1 } x ↔ Sel M x :=
            fun _ => Iff.rfl
          simp only [this]
          ring
      · rw [he]
        rfl
    · rw [if_neg hS]
      simp only
      rw [ih (M := { M with count := n + 1 }) (n := n + 1) (e := e) hi
        (by push_cast; rfl) he (by push_cast; omega) hl, Outcome.ok_bind]
      have hf : ((t :: ts).zipIdx n).filter (fun x => Sel M x.2) =
          (ts.zipIdx (n + 1)).filter fun x => Sel M x.2 := by
        rw [List.zipIdx_cons, List.filter_cons_of_neg (by simpa using hS)]
      rw [hf]
      simp only [List.length_cons]
      congr 2
      · congr 1
        push_cast; ring

/-! ### Neighborhoods -/

theorem addVolumes_none (volume : Nat → ℝ) (js : List Nat) (k : Nat) (acc : ℝ) :
    addVolumes volume none js k acc = (acc + (js.map volume).sum, k) := by
  induction js generalizing acc with
  | nil => simp [addVolumes]
  | cons j js ih => rw [addVolumes, ih, List.map_cons, List.sum_cons, add_assoc]

theorem addVolumes_some (volume w : Nat → ℝ) (js : List Nat) (k : Nat) (acc : ℝ) :
    addVolumes volume (some w) js k acc =
      (acc + ((List.range js.length).map fun t => w (k + t)).sum, k + js.length) := by
  induction js generalizing acc k with
  | nil => simp [addVolumes]
  | cons j js ih =>
    rw [addVolumes, ih, List.length_cons, List.range_succ_eq_map, List.map_cons, List.sum_cons,
      List.map_map, add_zero]
    have : ((fun t => w (k + t)) ∘ Nat.succ) = fun t => w (k + 1 + t) := by
      funext t
      simp only [Function.comp, Nat.succ_eq_add_one]
      congr 1
      omega
    rw [this, ← add_assoc]
    congr 1
    omega

/-- What is added for a point. -/
def volumeOf (volume : Nat → ℝ) (partials : Option (Nat → ℝ)) (ns : List Nat) (k : Nat) : ℝ :=
  match partials with
  | none => (ns.map volume).sum
  | some w => ((List.range ns.length).map fun t => w (k + t)).sum

theorem addVolumes_eq (volume : Nat → ℝ) (partials : Option (Nat → ℝ)) (js : List Nat) (k : Nat)
    (acc : ℝ) : (addVolumes volume partials js k acc).1 = acc + volumeOf volume partials js k ∧
      (partials = none ∨ (addVolumes volume partials js k acc).2 = k + js.length) := by
  cases partials with
  | none => rw [addVolumes_none]; exact ⟨rfl, Or.inl rfl⟩
  | some w => rw [addVolumes_some]; exact ⟨rfl, Or.inr rfl⟩

theorem encode_append (a b : List (List Nat)) : encode (a ++ b) = encode a ++ encode b :=
  List.flatMap_append

theorem encode_cons (a : List Nat) (b : List (List Nat)) :
    encode (a :: b) = (a.length :: a) ++ encode b := rfl

theorem read_entry (pre suf : List (List Nat)) (ns : List Nat) :
    (encode (pre ++ ns :: suf))[(encode pre).length]? = some ns.length ∧
    (encode pre).length + 1 + ns.length ≤ (encode (pre ++ ns :: suf)).length ∧
    ((encode (pre ++ ns :: suf)).drop ((encode pre).length + 1)).take ns.length = ns ∧
    (encode (pre ++ [ns])).length = (encode pre).length + 1 + ns.length := by
  rw [encode_append, encode_cons]
  refine ⟨by simp, ?_, ?_, ?_⟩
  · simp only [List.length_append, List.length_cons]
    omega
  · rw [List.drop_append, List.drop_eq_nil_of_le (by omega)]
    simp
  · rw [encode_append, List.length_append]
    simp [encode]
    omega

theorem neighborhoodVolumes_from (volume : Nat → ℝ) (partials : Option (Nat → ℝ))
    (suf : List (List Nat)) : ∀ (pre : List (List Nat)) (k : Nat) (V : Nat → ℝ),
    (partials = none ∨ k = (pre.map List.length).sum) →
    ∃ V', neighborhoodVolumes volume partials (encode (pre ++ suf)) suf.length pre.length
        (encode pre).length k V = .ok V' ∧
      (∀ q ns, suf[q]? = some ns → V' (pre.length + q) = volume (pre.length + q) +
        volumeOf volume partials ns (((pre ++ suf.take q).map List.length).sum)) ∧
      ∀ p, p < pre.length ∨ pre.length + suf.length ≤ p → V' p = V p := by
  induction suf with
  | nil => intro pre k V _; exact ⟨V, rfl, by simp, fun _ _ => rfl⟩
  | cons ns suf ih =>
    intro pre k V hk
    obtain ⟨r1, r2, r3, r4⟩ := read_entry pre suf ns
    obtain ⟨a1, a2⟩ := addVolumes_eq volume partials ns k (volume pre.length)
    have hvol : volumeOf volume partials ns k =
        volumeOf volume partials ns ((pre.map List.length).sum) := by
      rcases hk with rfl | rfl <;> rfl
    obtain ⟨V', h1, h2, h3⟩ := ih (pre ++ [ns]) (addVolumes volume partials ns k (volume pre.length)).2
      (Function.update V pre.length (addVolumes volume partials ns k (volume pre.length)).1) (by
        rcases hk with h | h
        · exact Or.inl h
        · rcases a2 with a2 | a2
          · exact Or.inl a2
          · right
            rw [a2, h]
            simp)
    have hl : (pre ++ [ns]).length = pre.length + 1 := by simp
    rw [hl] at h1 h2 h3
    rw [r4, List.append_assoc, List.singleton_append] at h1
    refine ⟨V', ?_, ?_, ?_⟩
    · rw [List.length_cons, neighborhoodVolumes, r1]
      simp only
      rw [if_neg (by omega), r3]
      exact h1
    · intro q ns' hq
      cases q with
      | zero =>
        cases hq
        rw [add_zero, h3 _ (Or.inl (by omega)), Function.update_self, a1, hvol]
        simp
      | succ q =>
        rw [List.getElem?_cons_succ] at hq
        have := h2 q ns' hq
        rw [show pre.length + (q + 1) = pre.length + 1 + q by omega, this]
        simp
    · intro p hp
      rw [List.length_cons] at hp
      rw [h3 p (by omega), Function.update_of_ne (by omega)]

theorem numbersOfNeighbors_from (suf : List (List Nat)) : ∀ (pre : List (List Nat)) (V : Nat → ℝ),
    ∃ V', numbersOfNeighbors (encode (pre ++ suf)) suf.length pre.length (encode pre).length V = .ok V' ∧
      (∀ q ns, suf[q]? = some ns → V' (pre.length + q) = ns.length) ∧
      ∀ p, p < pre.length ∨ pre.length + suf.length ≤ p → V' p = V p := by
  induction suf with
  | nil => intro pre V; exact ⟨V, rfl, by simp, fun _ _ => rfl⟩
  | cons ns suf ih =>
    intro pre V
    obtain ⟨r1, r2, r3, r4⟩ := read_entry pre suf ns
    obtain ⟨V', h1, h2, h3⟩ := ih (pre ++ [ns]) (Function.update V pre.length (ns.length : ℝ))
    have hl : (pre ++ [ns]).length = pre.length + 1 := by simp
    rw [hl] at h1 h2 h3
    rw [r4, List.append_assoc, List.singleton_append] at h1
    refine ⟨V', ?_, ?_, ?_⟩
    · rw [List.length_cons, numbersOfNeighbors, r1]
      exact h1
    · intro q ns' hq
      cases q with
      | zero =>
        cases hq
        rw [add_zero, h3 _ (Or.inl (by omega)), Function.update_self]
      | succ q =>
        rw [List.getElem?_cons_succ] at hq
        have := h2 q ns' hq
        rw [show pre.length + (q + 1) = pre.length + 1 + q by omega, this]
    · intro p hp
      rw [List.length_cons] at hp
      rw [h3 p (by omega), Function.update_of_ne (by omega)]

end Verif.Outputs
