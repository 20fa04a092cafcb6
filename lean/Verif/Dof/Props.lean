import Verif.Dof.Model
import Mathlib.Tactic.NormNum

/-!
# Degrees of freedom: properties
-/

namespace Verif.Dof

/-- Slot `s` of a node belongs to component `k` of unknown `q`. -/
def Occupies (m : Manager) (q : Unknown) (k s : Nat) : Prop :=
  m.active q = true ∧ k < m.number q ∧ s = m.offset q + k

/-- The layout a user relies on: each active unknown has its natural number of components, every
slot below the total belongs to exactly one component of one active unknown, and no component is
given a slot at or beyond the total. -/
def GoodLayout (m : Manager) : Prop :=
  (∀ q, m.active q = true → m.number q = width q) ∧
  (∀ s, s < m.total ↔ ∃ q k, Occupies m q k s) ∧
  (∀ q k r l s, Occupies m q k s → Occupies m r l s → q = r ∧ k = l)

theorem initialize_values (p : Params) :
    (setup fresh p).active = flag p ∧
    (flag p .displacement = true → (setup fresh p).offset .displacement = 0) := by
  refine ⟨?_, ?_⟩
  · unfold setup assign
    cases hd : flag p .displacement <;> cases ht : flag p .temperature <;>
      cases hc : flag p .concentration <;> cases hp : flag p .pressure <;>
      simp [hd, ht, hc, hp]
  · intro h
    unfold setup assign
    cases ht : flag p .temperature <;>
      cases hc : flag p .concentration <;> cases hp : flag p .pressure <;>
      simp [h, ht, hc, hp, fresh]

theorem exists_unknown (P : Unknown → Prop) :
    (∃ q, P q) ↔ P .displacement ∨ P .temperature ∨ P .concentration ∨ P .pressure := by
  constructor
  · rintro ⟨q, h⟩
    cases q <;> simp [h]
  · rintro (h | h | h | h) <;> exact ⟨_, h⟩

theorem forall_unknown (P : Unknown → Prop) :
    (∀ q, P q) ↔ P .displacement ∧ P .temperature ∧ P .concentration ∧ P .pressure := by
  constructor
  · intro h; exact ⟨h _, h _, h _, h _⟩
  · rintro ⟨a, b, c, d⟩ q
    cases q <;> assumption

/-- What does hold of any number of initialisations: active unknowns never overlap and stay below
the total, so no two of them ever share a matrix row. -/
theorem disjoint_always_partial (m : Manager) (p : Params) :
    (∀ q k s, Occupies (setup m p) q k s → s < (setup m p).total) ∧
    (∀ q k r l s, Occupies (setup m p) q k s → Occupies (setup m p) r l s →
      q = r ∧ k = l) := by
  constructor
  · intro q k s
    unfold Occupies setup assign
    cases hd : flag p .displacement <;> cases ht : flag p .temperature <;>
      cases hc : flag p .concentration <;> cases hp : flag p .pressure <;>
      cases q <;> simp [hd, ht, hc, hp, width] <;> omega
  · intro q k r l s
    unfold Occupies setup assign
    cases hd : flag p .displacement <;> cases ht : flag p .temperature <;>
      cases hc : flag p .concentration <;> cases hp : flag p .pressure <;>
      cases q <;> cases r <;> simp [hd, ht, hc, hp, width] <;> omega

/-- A non-trivial case: the twice-initialised manager still has its displacement in range. -/
example : Occupies (setup (setup fresh {}) {}) .displacement 2 5 :=
  ⟨rfl, by decide, rfl⟩

/-- **C47** (first use of the singleton): after `initialize` on the freshly constructed manager
the active unknowns are those requested, and they occupy disjoint contiguous ranges that together
cover exactly the slots below the total number of degrees of freedom. -/
theorem layout_partial (p : Params) :
    (setup fresh p).active = flag p ∧ GoodLayout (setup fresh p) := by
  refine ⟨(initialize_values p).1, ?_, ?_, ?_⟩
  · rw [forall_unknown]
    unfold setup assign
    cases hd : flag p .displacement <;> cases ht : flag p .temperature <;>
      cases hc : flag p .concentration <;> cases hp : flag p .pressure <;>
      simp [hd, ht, hc, hp]
  · intro s
    unfold Occupies
    rw [exists_unknown]
    unfold setup assign
    cases hd : flag p .displacement <;> cases ht : flag p .temperature <;>
      cases hc : flag p .concentration <;> cases hp : flag p .pressure <;>
      simp [hd, ht, hc, hp, fresh, width] <;>
      first
      | done
      | omega
  · exact (disjoint_always_partial fresh p).2

/-- A concrete non-trivial case: displacement, temperature and pressure are solved for; the
temperature sits in slot 3 and the pressure in slot 4 of five. -/
example : (setup fresh { temperature := some true, pressure := some true }).total = 5 ∧
    Occupies (setup fresh { temperature := some true, pressure := some true })
      .pressure 0 4 := by
  refine ⟨rfl, rfl, ?_, rfl⟩
  exact Nat.zero_lt_one

/-- **C47** (rows): whenever the layout is good, (node, unknown, component) to matrix row is
one-to-one, and the rows so numbered for nodes below `n` are exactly those below `n` times the
number of degrees of freedom. -/
theorem rows_one_to_one (m : Manager) (hm : GoodLayout m) :
    (∀ g q k g' q' k', m.active q = true → k < m.number q → m.active q' = true →
      k' < m.number q' → row m g q k = row m g' q' k' → g = g' ∧ q = q' ∧ k = k') ∧
    (∀ n r, r < m.total * n ↔
      ∃ g q k, g < n ∧ m.active q = true ∧ k < m.number q ∧ r = row m g q k) := by
  obtain ⟨_, hcov, hinj⟩ := hm
  have key : ∀ g q k, m.active q = true → k < m.number q →
      row m g q k = m.total * g + (m.offset q + k) ∧ m.offset q + k < m.total := by
    intro g q k ha hk
    exact ⟨by unfold row; omega, (hcov _).mpr ⟨q, k, ha, hk, rfl⟩⟩
  have divmod : ∀ g t, t < m.total →
      (m.total * g + t) / m.total = g ∧ (m.total * g + t) % m.total = t := by
    intro g t ht
    have hpos : 0 < m.total := by omega
    constructor
    · rw [Nat.mul_add_div hpos, Nat.div_eq_of_lt ht, Nat.add_zero]
    · rw [Nat.mul_add_mod, Nat.mod_eq_of_lt ht]
  constructor
  · intro g q k g' q' k' ha hk ha' hk' e
    obtain ⟨e1, l1⟩ := key g q k ha hk
    obtain ⟨e2, l2⟩ := key g' q' k' ha' hk'
    rw [e1, e2] at e
    have hg : g = g' := by
      have := congrArg (· / m.total) e
      simpa [(divmod g _ l1).1, (divmod g' _ l2).1] using this
    have hs : m.offset q + k = m.offset q' + k' := by
      have := congrArg (· % m.total) e
      simpa [(divmod g _ l1).2, (divmod g' _ l2).2] using this
    exact ⟨hg, hinj q k q' k' _ ⟨ha, hk, rfl⟩ ⟨ha', hk', hs⟩⟩
  · intro n r
    constructor
    · intro h
      have hpos : 0 < m.total := by
        rcases Nat.eq_zero_or_pos m.total with e | e
        · rw [e, Nat.zero_mul] at h; omega
        · exact e
      obtain ⟨q, k, ha, hk, hs⟩ := (hcov (r % m.total)).mp (Nat.mod_lt _ hpos)
      refine ⟨r / m.total, q, k, ?_, ha, hk, ?_⟩
      · rw [Nat.div_lt_iff_lt_mul hpos, Nat.mul_comm]; exact h
      · have := Nat.div_add_mod r m.total
        unfold row
        omega
    · rintro ⟨g, q, k, hg, ha, hk, rfl⟩
      obtain ⟨e1, l1⟩ := key g q k ha hk
      rw [e1]
      calc m.total * g + (m.offset q + k) < m.total * g + m.total := by omega
        _ = m.total * (g + 1) := by rw [Nat.mul_succ]
        _ ≤ m.total * n := Nat.mul_le_mul_left _ hg

example : row (setup fresh { temperature := some true }) 2 .temperature 0 = 11 ∧
    GoodLayout (setup fresh { temperature := some true }) :=
  ⟨rfl, (layout_partial _).2⟩

/-- **C47 is false for a second initialisation.** The running total is never reset, so
initialising the singleton again (with the very same parameters, as a second `Peridigm` object in
the same process does) moves the displacement to slots 3..5 of six: slots 0..2 belong to nothing.
-/
theorem reinitialize_changes_layout :
    (setup (setup fresh {}) {}).total = 6 ∧
    (setup (setup fresh {}) {}).offset .displacement = 3 ∧
    ¬ GoodLayout (setup (setup fresh {}) {}) := by
  refine ⟨rfl, rfl, ?_⟩
  rintro ⟨_, hcov, _⟩
  obtain ⟨q, k, ha, hk, e⟩ := (hcov 0).mp (by decide)
  cases q
  · have : (0 : Nat) = 3 + k := e
    omega
  all_goals exact absurd ha (by decide)

end Verif.Dof
