import Verif.Assoc.PlasticSpec
import Verif.Assoc.OutputLemmas
import Verif.Assoc.MotionProps
import Verif.Correspondence.StressProps
import Verif.Hypo.PlasticProps

/-!
# The perfectly plastic bond-associated correspondence material: lemmas
-/

noncomputable section

namespace Verif.Assoc

open Verif Verif.Neigh Verif.Mech Verif.Tensor Matrix
open Verif.Correspondence (perfectPoint PlasticOut vonMises trialStress)
open Verif.Return (Fields MatState)
open scoped Classical

/-- What the loop leaves at an entry. -/
structure Flowed (bulk shear yield dt : ℝ) (D : Nat → M9) (old f : Fields) (k : Nat) (o : PlasticOut) : Prop where
  law : perfectPoint bulk shear yield dt (D k) (old.stress k) (old.eqps k) = .ok o
  stress : f.stress k = o.stress
  mises : f.mises k = o.mises
  eqps : f.eqps k = o.eqps
  triaxiality : f.triaxiality k = Verif.Return.triaxialityOf o.stress o.mises

theorem perfectAll_spec {bulk shear yield dt : ℝ} {D : Nat → M9} {old : Fields} :
    ∀ {ks : List Nat} {new f : Fields}, perfectAll bulk shear yield dt D old new ks = .ok f →
      (∀ k ∈ ks, ∃ o, Flowed bulk shear yield dt D old f k o) ∧
      ∀ k, k ∉ ks → f.stress k = new.stress k ∧ f.mises k = new.mises k ∧ f.eqps k = new.eqps k ∧
        f.triaxiality k = new.triaxiality k := by
  intro ks
  induction ks with
  | nil =>
    intro new f h
    cases h
    exact ⟨fun p hp => absurd hp (by simp), fun p _ => ⟨rfl, rfl, rfl, rfl⟩⟩
  | cons q ks ih =>
    intro new f h
    unfold perfectAll at h
    obtain ⟨f1, h1, h2⟩ := BC.foldlM_cons_ok.mp h
    obtain ⟨o, ho, h1⟩ := Outcome.bind_eq_ok.mp h1
    cases h1
    obtain ⟨ih1, ih2⟩ := ih h2
    constructor
    · intro p hp
      by_cases hq : p ∈ ks
      · exact ih1 p hq
      · rcases List.mem_cons.mp hp with rfl | hp
        · obtain ⟨e1, e2, e3, e4⟩ := ih2 p hq
          refine ⟨o, ho, e1.trans ?_, e2.trans ?_, e3.trans ?_, e4.trans ?_⟩ <;> simp [Fields.put]
        · exact absurd hp hq
    · intro p hp
      obtain ⟨e1, e2, e3, e4⟩ := ih2 p (fun h => hp (List.mem_cons_of_mem _ h))
      have hne : p ≠ q := fun e => hp (e ▸ List.mem_cons_self ..)
      refine ⟨e1.trans ?_, e2.trans ?_, e3.trans ?_, e4.trans ?_⟩ <;> simp [Fields.put, hne]

theorem perfectAll_ok {bulk shear yield dt : ℝ} (hs : shear ≠ 0) {D : Nat → M9} {old : Fields} :
    ∀ {ks : List Nat} {new : Fields}, ∃ f, perfectAll bulk shear yield dt D old new ks = .ok f := by
  intro ks
  induction ks with
  | nil => exact ⟨_, rfl⟩
  | cons q ks ih =>
    intro new
    obtain ⟨o, ho⟩ : ∃ o, perfectPoint bulk shear yield dt (D q) (old.stress q) (old.eqps q) = .ok o := by
      unfold perfectPoint
      simp only
      rw [if_neg hs]
      split <;> exact ⟨_, rfl⟩
    obtain ⟨f, hf⟩ := ih (new := new.put false q o)
    refine ⟨f, ?_⟩
    unfold perfectAll
    exact BC.foldlM_cons_ok.mpr ⟨_, by rw [ho]; rfl, hf⟩

/-- The new stress does not depend on the plastic strain. -/
theorem perfect_eqps {bulk shear yield dt : ℝ} {D sigma : M9} {e e' : ℝ} {o o' : PlasticOut}
    (h : perfectPoint bulk shear yield dt D sigma e = .ok o) (h' : perfectPoint bulk shear yield dt D sigma e' = .ok o') :
    o.stress = o'.stress ∧ o.mises = o'.mises := by
  unfold perfectPoint at h h'
  simp only at h h'
  split at h
  next hc =>
    rw [if_pos hc] at h'
    split at h
    · cases h
    next hs =>
      rw [if_neg hs] at h'
      cases h
      cases h'
      exact ⟨rfl, rfl⟩
  next hc =>
    rw [if_neg hc] at h'
    cases h
    cases h'
    exact ⟨rfl, rfl⟩

/-- What the update leaves at an entry. -/
theorem update_spec {bulk shear yield dt : ℝ} {ks : List Nat} {D s s' : Nat → M9}
    (h : perfectUpdate bulk shear yield ks dt D s = .ok s') :
    (∀ k ∈ ks, ∃ o, perfectPoint bulk shear yield dt (D k) (s k) 0 = .ok o ∧ s' k = o.stress) ∧ ∀ k, k ∉ ks → s' k = s k := by
  obtain ⟨f, h1, h2⟩ := Outcome.bind_eq_ok.mp h
  cases h2
  obtain ⟨a, b⟩ := perfectAll_spec h1
  exact ⟨fun k hk => let ⟨o, ho⟩ := a k hk; ⟨o, ho.law, ho.stress⟩, fun k hk => (b k hk).1⟩

theorem update_total {bulk shear yield : ℝ} (hs : shear ≠ 0) (ks : List Nat) (dt : ℝ) (D s : Nat → M9) :
    ∃ s', perfectUpdate bulk shear yield ks dt D s = .ok s' := by
  obtain ⟨f, hf⟩ := perfectAll_ok (bulk := bulk) (yield := yield) (dt := dt) (D := D) hs (old := fieldsOf s fun _ => 0) (ks := ks)
    (new := fieldsOf s fun _ => 0)
  exact ⟨f.stress, by unfold perfectUpdate; rw [hf]; rfl⟩

/-- The positions of the bonds. -/
abbrev places (nbs : List (List Nat)) : List Nat := (bondsOf nbs).map (·.b)

theorem mem_places {nbs : List (List Nat)} {k : Nat} : k ∈ places nbs ↔ k < (nbs.map List.length).sum := by
  rw [places, bondsOf, bondsFrom_pos, List.mem_range'_1]
  simp

theorem perfect_local (nbs : List (List Nat)) (bulk shear yield : ℝ) : Local nbs (perfectUpdate bulk shear yield (places nbs)) := by
  intro dt A s s' h k hk k' hk' h1 h2
  obtain ⟨a, -⟩ := update_spec h
  obtain ⟨o, e1, e2⟩ := a k (mem_places.mpr hk)
  obtain ⟨o', e1', e2'⟩ := a k' (mem_places.mpr hk')
  rw [h1, h2] at e1
  rw [e2, e2', (perfect_eqps e1 e1').1]

/-- Parts of an evaluation. -/
structure PlasticParts (B : Body) (D : Decompose) (order : Nat) (bulk shear yield dt : ℝ) (H : Harm) (u y v : Nat → V3)
    (g : Ghosts) (s : State) (o : Shown) (e : Strains) (nbs : List (List Nat)) (q : PlasticResult) : Prop where
  eval : evaluation B D order (perfectUpdate bulk shear yield (places nbs)) dt H u y v g s nbs.length (encode nbs) = .ok q.result
  written : written (perfectUpdate bulk shear yield (List.range nbs.length)) dt q.result.pre nbs.length o = .ok q.written
  nodes : perfectAll bulk shear yield dt q.written.rate (fieldsOf o.stress e.node) (fieldsOf o.stress e.node)
    (List.range nbs.length) = .ok q.fields.nodes
  bonds : perfectAll bulk shear yield dt q.result.kin.rate (fieldsOf s.stress e.bond) (fieldsOf s.stress e.bond) (places nbs) =
    .ok q.fields.bonds

theorem plastic_parts {B : Body} {D : Decompose} {order : Nat} {bulk shear yield dt : ℝ} {H : Harm} {u y v : Nat → V3}
    {g : Ghosts} {s : State} {o : Shown} {e : Strains} {nbs : List (List Nat)} {q : PlasticResult}
    (h : perfectEvaluation B D order bulk shear yield dt H u y v g s o e nbs.length (encode nbs) = .ok q) :
    PlasticParts B D order bulk shear yield dt H u y v g s o e nbs q := by
  unfold perfectEvaluation at h
  rw [visited_encode, Outcome.ok_bind] at h
  obtain ⟨⟨r, w⟩, h1, h⟩ := Outcome.bind_eq_ok.mp h
  obtain ⟨n, h2, h⟩ := Outcome.bind_eq_ok.mp h
  obtain ⟨b, h3, h⟩ := Outcome.bind_eq_ok.mp h
  cases h
  obtain ⟨h4, h5⟩ := evaluationWritten_parts h1
  exact ⟨h4, h5, h2, h3⟩

theorem plastic_defined {B : Body} {D : Decompose} {order : Nat} {bulk shear yield dt : ℝ} (hs : shear ≠ 0) {H : Harm}
    {u y v : Nat → V3} {g : Ghosts} {s : State} (o : Shown) (e : Strains) {nbs : List (List Nat)} {r : Result}
    (h : evaluation B D order (perfectUpdate bulk shear yield (places nbs)) dt H u y v g s nbs.length (encode nbs) = .ok r) :
    ∃ q, perfectEvaluation B D order bulk shear yield dt H u y v g s o e nbs.length (encode nbs) = .ok q ∧ q.result = r := by
  obtain ⟨w, hw⟩ := written_defined (N := perfectUpdate bulk shear yield (List.range nbs.length)) (update_total hs _) o h
  unfold perfectEvaluation
  rw [visited_encode, Outcome.ok_bind]
  simp only
  rw [hw, Outcome.ok_bind]
  obtain ⟨f, hf⟩ := perfectAll_ok (bulk := bulk) (yield := yield) (dt := dt) (D := w.rate) hs (old := fieldsOf o.stress e.node)
    (ks := List.range nbs.length) (new := fieldsOf o.stress e.node)
  obtain ⟨f', hf'⟩ := perfectAll_ok (bulk := bulk) (yield := yield) (dt := dt) (D := r.kin.rate) hs (old := fieldsOf s.stress e.bond)
    (ks := places nbs) (new := fieldsOf s.stress e.bond)
  rw [hf, Outcome.ok_bind, hf', Outcome.ok_bind]
  exact ⟨_, rfl, rfl⟩

/-- An analysis with the plastic material is one with the bond-associated material. -/
theorem plastic_run {B : Body} {D : Decompose} {order : Nat} {bulk shear yield : ℝ} {ghost : Nat → ℝ} {nbs : List (List Nat)}
    {A : (Nat → ℝ) → Harm → Prop} {d : Nat → ℝ} {s : State} {o : Shown} {e : Strains}
    (h : PlasticRun B D order bulk shear yield ghost nbs A d s o e) :
    Run B D order (perfectUpdate bulk shear yield (places nbs)) ghost nbs A d s := by
  induction h with
  | start h => exact .start h
  | step _ hA h ih => exact .step ih hA (plastic_parts h).eval
  | again _ hA h ih => exact .again ih hA (plastic_parts h).eval

/-- The stresses in the fields are those of the evaluation. -/
theorem fields_stress {B : Body} {D : Decompose} {order : Nat} {bulk shear yield dt : ℝ} {H : Harm} {u y v : Nat → V3}
    {g : Ghosts} {s : State} {o : Shown} {e : Strains} {nbs : List (List Nat)} {q : PlasticResult}
    (h : PlasticParts B D order bulk shear yield dt H u y v g s o e nbs q) :
    q.fields.bonds.stress = q.result.stress ∧ q.fields.nodes.stress = q.written.kept.stress := by
  constructor
  · funext k
    obtain ⟨a1, a2⟩ := perfectAll_spec h.bonds
    obtain ⟨b1, b2⟩ := update_spec (force_parts (evaluation_parts h.eval).2).2.stress
    by_cases hk : k ∈ places nbs
    · obtain ⟨o1, ho⟩ := a1 k hk
      obtain ⟨o2, c1, c2⟩ := b1 k hk
      rw [ho.stress, c2]
      exact (perfect_eqps ho.law c1).1
    · rw [(a2 k hk).1, b2 k hk]
      rfl
  · funext k
    obtain ⟨a1, a2⟩ := perfectAll_spec h.nodes
    obtain ⟨b1, b2⟩ := update_spec (written_parts h.written).stress
    by_cases hk : k ∈ List.range nbs.length
    · obtain ⟨o1, ho⟩ := a1 k hk
      obtain ⟨o2, c1, c2⟩ := b1 k hk
      rw [ho.stress, c2]
      exact (perfect_eqps ho.law c1).1
    · rw [(a2 k hk).1, b2 k hk]
      rfl

end Verif.Assoc
