import Verif.Tangent.Lemmas
import Mathlib.Tactic.IntervalCases

/-!
# Sparsity of the tangent (C48)
-/

noncomputable section

namespace Verif.Tangent

open Verif Verif.Neigh Verif.Mech
open scoped Classical

/-- **C48**: the tangent has an entry for a component of point `I` and one of point `J` exactly if they
coincide, are bonded in either direction, or are both neighbors of a third point. -/
theorem C48_sparsity (D : Nat) (hD : 0 < D) (parts : List Part) (hv : ∀ P ∈ parts, P.Valid)
    (hu : UniqueOwner parts) : ∃ R, allocate D (parts.map Part.proc) = .ok R ∧
    ∀ I J a b, a < D → b < D → (D * J + b ∈ R (D * I + a) ↔
      (I = J ∧ (Owned parts I ∨ ∃ p, Nbr parts p I)) ∨ Nbr parts I J ∨ Nbr parts J I ∨
        ∃ p, Nbr parts p I ∧ Nbr parts p J) := by
  obtain ⟨R, hR, hm⟩ := allocate_ok D parts hv
  refine ⟨R, hR, fun I J a b ha hb => ?_⟩
  have dI : (D * I + a) / D = I := by rw [Nat.mul_add_div hD, Nat.div_eq_of_lt ha, Nat.add_zero]
  have dJ : (D * J + b) / D = J := by rw [Nat.mul_add_div hD, Nat.div_eq_of_lt hb, Nat.add_zero]
  have key : D * J + b ∈ R (D * I + a) ↔ ∃ P ∈ parts, ∃ (q : Nat) (ns : List Nat), P.nbs[q]? = some ns ∧
      I ∈ P.hood q ns ∧ J ∈ P.hood q ns := by
    rw [hm]
    simp only [mem_dofIds, dI, dJ, hD, true_and]
    constructor
    · rintro ⟨h, hh, hI, hJ⟩
      obtain ⟨P, hP, hh⟩ := List.mem_flatMap.1 hh
      obtain ⟨q, ns, hq, e⟩ := mem_hoods.1 hh
      exact ⟨P, hP, q, ns, hq, e ▸ hI, e ▸ hJ⟩
    · rintro ⟨P, hP, q, ns, hq, hI, hJ⟩
      exact ⟨_, List.mem_flatMap.2 ⟨P, hP, mem_hoods.2 ⟨q, ns, hq, rfl⟩⟩, hI, hJ⟩
  -- every owned point of a part has an id
  have own : ∀ P ∈ parts, ∀ (q : Nat) (ns : List Nat), P.nbs[q]? = some ns →
      q < P.nbs.length ∧ ∃ p, P.overlap[q]? = some p := by
    intro P hP q ns hq
    obtain ⟨hlt, _⟩ := List.getElem?_eq_some_iff.1 hq
    exact ⟨hlt, _, List.getElem?_eq_getElem (Nat.lt_of_lt_of_le hlt (hv P hP).1)⟩
  rw [key]
  constructor
  · rintro ⟨P, hP, q, ns, hq, hI, hJ⟩
    obtain ⟨hlt, p, hp⟩ := own P hP q ns hq
    have nb : ∀ X, (∃ i ∈ ns, P.overlap[i]? = some X) → Nbr parts p X :=
      fun X hX => ⟨P, hP, q, ns, hq, hp, hX⟩
    rcases mem_hood.1 hI with hI | hI <;> rcases mem_hood.1 hJ with hJ | hJ
    · rw [hI] at hJ
      cases hJ
      exact .inl ⟨rfl, .inl ⟨P, hP, q, hlt, hI⟩⟩
    · rw [hI] at hp
      cases hp
      exact .inr (.inl (nb J hJ))
    · rw [hJ] at hp
      cases hp
      exact .inr (.inr (.inl (nb I hI)))
    · exact .inr (.inr (.inr ⟨p, nb I hI, nb J hJ⟩))
  · rintro (⟨rfl, ⟨P, hP, q, hlt, hp⟩ | ⟨p, P, hP, q, ns, hq, hp, hI⟩⟩ | ⟨P, hP, q, ns, hq, hp, hJ⟩ |
      ⟨P, hP, q, ns, hq, hp, hI⟩ | ⟨p, ⟨P, hP, q, ns, hq, hp, hI⟩, ⟨P', hP', q', ns', hq', hp', hJ⟩⟩)
    · exact ⟨P, hP, q, _, List.getElem?_eq_getElem hlt, mem_hood.2 (.inl hp), mem_hood.2 (.inl hp)⟩
    · exact ⟨P, hP, q, ns, hq, mem_hood.2 (.inr hI), mem_hood.2 (.inr hI)⟩
    · exact ⟨P, hP, q, ns, hq, mem_hood.2 (.inl hp), mem_hood.2 (.inr hJ)⟩
    · exact ⟨P, hP, q, ns, hq, mem_hood.2 (.inr hI), mem_hood.2 (.inl hp)⟩
    · obtain ⟨rfl, rfl⟩ := hu P hP P' hP' q q' p (own P hP q ns hq).1 (own P' hP' q' ns' hq').1 hp hp'
      rw [hq] at hq'
      cases hq'
      exact ⟨P, hP, q, ns, hq, mem_hood.2 (.inr hI), mem_hood.2 (.inr hJ)⟩

/-- Three points in a row on two processors: 10 and 20 on the first, 30 on the second. -/
def demoParts : List Part := [⟨[10, 20, 30], [[1], [0, 2]]⟩, ⟨[30, 20], [[1]]⟩]

theorem demo_valid : ∀ P ∈ demoParts, P.Valid := by
  unfold Part.Valid Within demoParts
  decide

theorem demo_unique : UniqueOwner demoParts := by
  intro P hP P' hP' q q' p hq hq' e e'
  simp only [demoParts, List.mem_cons, List.not_mem_nil, or_false] at hP hP'
  rcases hP with rfl | rfl <;> rcases hP' with rfl | rfl <;>
    simp only [List.length_cons, List.length_nil] at hq hq' <;>
    interval_cases q <;> interval_cases q' <;> simp_all <;> omega

example : (∀ P ∈ demoParts, P.Valid) ∧ UniqueOwner demoParts ∧ Nbr demoParts 20 10 ∧ Nbr demoParts 20 30 ∧
    ¬ Nbr demoParts 10 30 := by
  refine ⟨demo_valid, demo_unique, ⟨_, List.mem_cons_self .., 1, _, rfl, rfl, 0, by decide, rfl⟩,
    ⟨_, List.mem_cons_self .., 1, _, rfl, rfl, 2, by decide, rfl⟩, ?_⟩
  rintro ⟨P, hP, q, ns, hq, hp, i, hi, e⟩
  simp only [demoParts, List.mem_cons, List.not_mem_nil, or_false] at hP
  rcases hP with rfl | rfl
  · have : q < 2 := (List.getElem?_eq_some_iff.1 hq).1
    interval_cases q
    · simp at hq
      subst hq
      simp at hi
      subst hi
      simp at e
    · simp at hp
  · have : q < 1 := (List.getElem?_eq_some_iff.1 hq).1
    interval_cases q
    simp at hp

end Verif.Tangent
