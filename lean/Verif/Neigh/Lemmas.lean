import Verif.Neigh.Spec
import Mathlib.Tactic.Common
import Mathlib.Data.List.Infix

/-! Lemmas on walking over flat neighborhood lists. -/

namespace Verif.Neigh

open Verif

@[simp] theorem encode_nil : encode [] = [] := rfl

@[simp] theorem encode_cons (ns : List Nat) (nbs : List (List Nat)) :
    encode (ns :: nbs) = ns.length :: (ns ++ encode nbs) := by simp [encode]

theorem encode_append (a b : List (List Nat)) : encode (a ++ b) = encode a ++ encode b := by
  simp [encode]

theorem readAt_mid {α : Type} (pre : List α) (x : α) (rest : List α) (i : Nat)
    (h : i = pre.length) : readAt (pre ++ x :: rest) i = .ok x := by
  subst h; simp [readAt]

theorem readAt_eq_ok {α : Type} {l : List α} {i : Nat} {x : α} :
    readAt l i = .ok x ↔ l[i]? = some x := by
  unfold readAt; cases l[i]? <;> simp

theorem readAt_lt {α : Type} (l : List α) (i : Nat) (h : i < l.length) : readAt l i = .ok l[i] :=
  readAt_eq_ok.2 (List.getElem?_eq_getElem h)

theorem readIds_mid (pre ns rest : List Nat) (i k : Nat) (h : i = pre.length) (hk : k = ns.length) :
    readIds (pre ++ (ns ++ rest)) i k = .ok ns := by
  subst hk
  induction ns generalizing pre i with
  | nil => rfl
  | cons n ns ih =>
    have e : pre ++ (n :: ns ++ rest) = (pre ++ [n]) ++ (ns ++ rest) := by simp
    have h1 : readAt (pre ++ (n :: ns ++ rest)) i = .ok n := by
      simpa using readAt_mid pre n (ns ++ rest) i h
    have h2 := ih (pre ++ [n]) (i + 1) (by simp [h])
    rw [List.length_cons, readIds, h1]
    simp only
    rw [e, h2]

/-- The bonds of one point: neighbors `ns`, bond data from `b` on. -/
def pointBonds (p : Nat) (ns : List Nat) (b : Nat) : List Bond :=
  (ns.zipIdx b).map fun x => ⟨p, x.1, x.2⟩

/-- The bonds of the points from `p` on. -/
def bondsFrom : List (List Nat) → Nat → Nat → List Bond
  | [], _, _ => []
  | ns :: nbs, p, b => pointBonds p ns b ++ bondsFrom nbs (p + 1) (b + ns.length)

theorem innerLoop_mid (pre ns rest : List Nat) (p i b k : Nat) (h : i = pre.length)
    (hk : k = ns.length) :
    innerLoop (pre ++ (ns ++ rest)) p i b k = .ok (pointBonds p ns b) := by
  subst hk
  induction ns generalizing pre i b with
  | nil => rfl
  | cons n ns ih =>
    have e : pre ++ (n :: ns ++ rest) = (pre ++ [n]) ++ (ns ++ rest) := by simp
    have h1 : readAt (pre ++ (n :: ns ++ rest)) i = .ok n := by
      simpa using readAt_mid pre n (ns ++ rest) i h
    have h2 := ih (pre ++ [n]) (i + 1) (b + 1) (by simp [h])
    rw [List.length_cons, innerLoop, h1]
    simp only
    rw [e, h2]
    simp [pointBonds]

theorem outerLoop_mid (nbs : List (List Nat)) (pre rest : List Nat) (p i b n : Nat)
    (h : i = pre.length) (hn : n = nbs.length) :
    outerLoop (pre ++ (encode nbs ++ rest)) n p i b = .ok (bondsFrom nbs p b) := by
  subst hn
  induction nbs generalizing pre i p b with
  | nil => rfl
  | cons ns nbs ih =>
    have e1 : pre ++ (encode (ns :: nbs) ++ rest) = pre ++ ns.length :: (ns ++ (encode nbs ++ rest)) := by
      simp
    have e2 : pre ++ (encode (ns :: nbs) ++ rest) =
        (pre ++ [ns.length]) ++ (ns ++ (encode nbs ++ rest)) := by simp
    have e3 : pre ++ (encode (ns :: nbs) ++ rest) =
        (pre ++ ns.length :: ns) ++ (encode nbs ++ rest) := by simp
    have h1 : readAt (pre ++ (encode (ns :: nbs) ++ rest)) i = .ok ns.length := by
      rw [e1]; exact readAt_mid _ _ _ _ h
    have h2 : innerLoop (pre ++ (encode (ns :: nbs) ++ rest)) p (i + 1) b ns.length
        = .ok (pointBonds p ns b) := by
      rw [e2]; exact innerLoop_mid _ _ _ _ _ _ _ (by simp [h]) rfl
    have h3 : outerLoop (pre ++ (encode (ns :: nbs) ++ rest)) nbs.length (p + 1) (i + 1 + ns.length)
        (b + ns.length) = .ok (bondsFrom nbs (p + 1) (b + ns.length)) := by
      rw [e3]; exact ih _ _ _ _ (by simp [h]; omega)
    rw [List.length_cons, outerLoop, h1]
    simp only
    rw [h2]
    simp only
    rw [h3]
    rfl

theorem pointBonds_pairs (p : Nat) (ns : List Nat) (b : Nat) :
    (pointBonds p ns b).map (fun x => (x.i, x.j)) = ns.map fun j => (p, j) := by
  induction ns generalizing b with
  | nil => rfl
  | cons n ns ih => simpa [pointBonds] using ih (b + 1)

theorem pointBonds_index (p : Nat) (ns : List Nat) (b : Nat) :
    (pointBonds p ns b).map Bond.b = List.range' b ns.length := by
  induction ns generalizing b with
  | nil => rfl
  | cons n ns ih => simpa [pointBonds, List.range'_succ] using ih (b + 1)

theorem bondsFrom_pairs (nbs : List (List Nat)) (p b : Nat) :
    (bondsFrom nbs p b).map (fun x => (x.i, x.j)) =
      (nbs.zipIdx p).flatMap fun x => x.1.map fun j => (x.2, j) := by
  induction nbs generalizing p b with
  | nil => rfl
  | cons ns nbs ih => simp [bondsFrom, pointBonds_pairs, ih]

theorem bondsFrom_index (nbs : List (List Nat)) (p b : Nat) :
    (bondsFrom nbs p b).map Bond.b = List.range' b (nbs.map List.length).sum := by
  induction nbs generalizing p b with
  | nil => rfl
  | cons ns nbs ih =>
    simp only [bondsFrom, List.map_append, pointBonds_index, ih, List.map_cons, List.sum_cons]
    rw [List.range'_append_1]

theorem encode_injective {a b : List (List Nat)} (h : encode a = encode b) : a = b := by
  induction a generalizing b with
  | nil => cases b with
    | nil => rfl
    | cons n b => simp at h
  | cons m a ih =>
    cases b with
    | nil => simp at h
    | cons n b =>
      simp only [encode_cons, List.cons.injEq] at h
      obtain ⟨h1, h2⟩ := List.append_inj h.2 h.1
      rw [h1, ih h2]

theorem neighborsAt_mid (pre : List (List Nat)) (ns : List Nat) (post : List (List Nat))
    (rest : List Nat) :
    neighborsAt (encode (pre ++ ns :: post) ++ rest) (encode pre).length = .ok ns := by
  have e1 : encode (pre ++ ns :: post) ++ rest =
      encode pre ++ ns.length :: (ns ++ (encode post ++ rest)) := by
    rw [encode_append]; simp
  have e2 : encode (pre ++ ns :: post) ++ rest =
      (encode pre ++ [ns.length]) ++ (ns ++ (encode post ++ rest)) := by
    rw [encode_append]; simp
  have h1 : readAt (encode (pre ++ ns :: post) ++ rest) (encode pre).length = .ok ns.length := by
    rw [e1]; exact readAt_mid _ _ _ _ rfl
  rw [neighborsAt, h1]
  simp only
  rw [e2]
  exact readIds_mid _ _ _ _ _ (by simp) rfl

theorem neighborsAt_get (nbs : List (List Nat)) (i : Nat) (hi : i < nbs.length) :
    neighborsAt (encode nbs) (encode (nbs.take i)).length = .ok nbs[i] := by
  have h := neighborsAt_mid (nbs.take i) nbs[i] (nbs.drop (i + 1)) []
  rw [List.append_nil] at h
  rwa [show nbs.take i ++ nbs[i] :: nbs.drop (i + 1) = nbs by simp] at h

theorem offsets_get (nbs : List (List Nat)) (i : Nat) (hi : i < nbs.length) :
    (offsets nbs)[i]? = some (encode (nbs.take i)).length := by
  simp [offsets, hi]

theorem offsets_length (nbs : List (List Nat)) : (offsets nbs).length = nbs.length := by
  simp [offsets]

/-! ### Lists that are too short -/

theorem readAt_short {α : Type} {l : List α} {i : Nat} (h : l.length ≤ i) : readAt l i = .ub := by
  simp [readAt, h]

theorem innerLoop_ok {l : List Nat} {p i b k : Nat} {bs : List Bond}
    (h : innerLoop l p i b k = .ok bs) : k = 0 ∨ i + k ≤ l.length := by
  induction k generalizing i b bs with
  | zero => exact Or.inl rfl
  | succ k ih =>
    right
    rw [innerLoop] at h
    split at h <;> try cases h
    rename_i j hj
    split at h <;> try cases h
    rename_i bs' hb
    have h1 : i < l.length := by
      by_contra hc
      rw [readAt_short (by omega)] at hj
      cases hj
    rcases ih hb with h2 | h2 <;> omega

/-- A walk that ends normally on a prefix of `m` reads the same there. -/
theorem readAt_ok_prefix {α : Type} {l m : List α} (h : l <+: m) {i : Nat} {x : α}
    (hx : readAt l i = .ok x) : readAt m i = .ok x := by
  obtain ⟨t, rfl⟩ := h
  rw [readAt_eq_ok] at hx ⊢
  obtain ⟨hi, _⟩ := List.getElem?_eq_some_iff.1 hx
  rw [List.getElem?_append_left hi, hx]

theorem outerLoop_short (nbs : List (List Nat)) (pre : List Nat) (l : List Nat) (p i b : Nat)
    (h : i = pre.length) (hp : l <+: pre ++ encode nbs) (hl : l.length < (pre ++ encode nbs).length)
    (hpre : nbs ≠ []) (hge : pre.length ≤ l.length) :
    outerLoop l nbs.length p i b = .ub := by
  induction nbs generalizing pre p i b with
  | nil => exact absurd rfl hpre
  | cons ns nbs ih =>
    rw [List.length_cons, outerLoop]
    cases hr : readAt l i with
    | ub => rfl
    | fail e => unfold readAt at hr; split at hr <;> cases hr
    | ok k =>
      have hk : k = ns.length := by
        have h1 := readAt_ok_prefix hp hr
        rw [encode_cons, readAt_mid _ _ _ _ h] at h1
        cases h1; rfl
      subst hk
      simp only
      cases hb : innerLoop l p (i + 1) b ns.length with
      | ub => rfl
      | fail e =>
        exfalso
        clear ih hr hp hl
        generalize ns.length = k at hb
        generalize i + 1 = q at hb
        induction k generalizing q b with
        | zero => cases hb
        | succ k ihk =>
          rw [innerLoop] at hb
          split at hb
          · rename_i e' he
            unfold readAt at he; split at he <;> cases he
          · cases hb
          · split at hb
            · rename_i he
              cases hb
              exact ihk _ _ he
            · cases hb
            · cases hb
      | ok bs =>
        simp only
        have hlen := innerLoop_ok hb
        have hi : i < l.length := by
          by_contra hc
          rw [readAt_short (by omega)] at hr
          cases hr
        have hsize : pre.length + 1 + ns.length ≤ l.length := by
          rcases hlen with h0 | h0 <;> omega
        have e3 : pre ++ encode (ns :: nbs) = (pre ++ ns.length :: ns) ++ encode nbs := by simp
        by_cases hn : nbs = []
        · subst hn
          simp at hl
          omega
        · rw [ih (pre ++ ns.length :: ns) (p + 1) (i + 1 + ns.length) (b + ns.length)
            (by simp [h]; omega) (e3 ▸ hp) (e3 ▸ hl) hn (by simp; omega)]

end Verif.Neigh
