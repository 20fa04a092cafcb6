import Verif.BC.InitialProps

/-!
# Properties C68 (prescribed temperatures) and C69 (thermal flux)
-/

namespace Verif.BC

open Verif

/-- The kinds of conditions that write temperatures. -/
def Thermal (t : BCType) : Prop := t = .prescribedTemperature ∨ t = .thermalFlux

theorem hits_scalar {C : Ctx} {d : Definition} {t : Target} {kind : Kind} {g l l' : Nat}
    (hd : dim t = 1) (hl : lid C.owned g = some l) (hc : (d.coord : Nat) < dim t)
    (h : Hits C (obj d t kind) t l l') : l' = l ∧ Covers C.sets d g 0 := by
  obtain ⟨_, hi, nodes, g', hs, hg', hl'⟩ := h
  have hi' : l = l' * dim t + (d.coord : Nat) := hi
  rw [hd] at hi' hc
  have e : l' = l := by omega
  subst e
  have : g' = g := lid_inj hl' hl
  subst this
  exact ⟨rfl, by omega, nodes, hs, hg'⟩

theorem thermal_hits {C : Ctx} {d : Definition} {g l l' : Nat} {c : Condition}
    (hc : c ∈ boundaryOf d) (hco : c.coord < dim c.target) (hl : lid C.owned g = some l) :
    (Hits C c .temperature l l' → Thermal d.type ∧ Covers C.sets d g 0) ∧
    (Hits C c .deltaTemperature l l' → d.type = .prescribedTemperature ∧ Covers C.sets d g 0) := by
  unfold boundaryOf at hc
  cases ht : d.type <;> rw [ht] at hc <;> simp only [List.mem_cons, List.not_mem_nil, or_false] at hc
  case prescribedTemperature =>
    rcases hc with rfl | rfl
    · exact ⟨fun h => ⟨.inl rfl, (hits_scalar rfl hl hco h).2⟩, fun h => absurd h.1 (by simp [obj])⟩
    · exact ⟨fun h => absurd h.1 (by simp [obj]), fun h => ⟨rfl, (hits_scalar rfl hl hco h).2⟩⟩
  case thermalFlux =>
    subst hc
    exact ⟨fun h => ⟨.inr rfl, (hits_scalar rfl hl hco h).2⟩, fun h => absurd h.1 (by simp [obj])⟩
  all_goals
    rcases hc with rfl | rfl <;>
      exact ⟨fun h => absurd h.1 (by simp [obj]), fun h => absurd h.1 (by simp [obj])⟩

/-- **C68** At time `tc` the temperature of a node with a prescribed temperature is the prescribed
function at `tc`, and, if time advances, its temperature change is the difference to the prescribed
value at time zero, provided no later condition covers the node. -/
theorem prescribed_temperature_exact (C : Ctx) (ds : List Definition) (cs : Conditions)
    (hcs : makeConditions ds = .ok cs) (tc tp : ℝ) (s s' : Vecs)
    (h : applyBoundary C cs.boundary tc tp s = .ok s')
    (pre post : List Definition) (d : Definition) (hds : ds = pre ++ d :: post)
    (hd : d.type = .prescribedTemperature) (g l : Nat) (hl : lid C.owned g = some l)
    (hcov : Covers C.sets d g 0)
    (hpost : ∀ d' ∈ post, Thermal d'.type → ¬ Covers C.sets d' g 0) :
    d.value (C.x (l * 3)) (C.x (l * 3 + 1)) (C.x (l * 3 + 2)) tc = some (s' .temperature l) ∧
    (tc ≠ tp → ∃ T0, d.value (C.x (l * 3)) (C.x (l * 3 + 1)) (C.x (l * 3 + 2)) 0 = some T0 ∧
      s' .deltaTemperature l = s' .temperature l - T0) := by
  obtain ⟨hbd, _, hco, _⟩ := makeConditions_ok hcs
  have htgt : ∀ c ∈ cs.boundary, c.target ≠ .u := fun c hc =>
    (boundary_target (ds := ds) (by rw [← hbd]; exact hc)).1
  obtain ⟨_, _, a3⟩ := applyAll_ok cs.boundary htgt hco _ _ h
  have hof : boundaryOf d = [obj d .temperature .dirichlet, obj d .deltaTemperature (.increment 1 0 true)] := by
    unfold boundaryOf; rw [hd]
  have hs1 : cs.boundary = pre.flatMap boundaryOf ++ obj d .temperature .dirichlet ::
      (obj d .deltaTemperature (.increment 1 0 true) :: post.flatMap boundaryOf) := by
    rw [hbd, hds, List.flatMap_append, List.flatMap_cons, hof]; rfl
  have hs2 : cs.boundary = (pre.flatMap boundaryOf ++ [obj d .temperature .dirichlet]) ++
      obj d .deltaTemperature (.increment 1 0 true) :: post.flatMap boundaryOf := by
    rw [hs1]; simp
  have hcp : ∀ c' ∈ post.flatMap boundaryOf, c'.coord < dim c'.target := fun c' hc' =>
    hco c' (by rw [hs1]; exact List.mem_append_right _ (by simp [List.mem_flatMap.mp hc']))
  obtain ⟨hk, nodes, hn, hg⟩ := hcov
  have hit : ∀ t, dim t = 1 → ∀ kind, Hits C (obj d t kind) t l l := by
    intro t ht kind
    refine ⟨rfl, ?_, nodes, g, hn, hg, hl⟩
    show l = l * dim t + (d.coord : Nat)
    rw [ht]; omega
  have v1 := a3 _ _ _ hs1 rfl .temperature l l (hit _ rfl _) (by
    intro c' hc' l' hh
    rcases List.mem_cons.mp hc' with rfl | hc'
    · exact absurd hh.1 (by simp [obj])
    · obtain ⟨d', hd', hc''⟩ := List.mem_flatMap.mp hc'
      obtain ⟨t1, t2⟩ := (thermal_hits hc'' (hcp c' hc') hl).1 hh
      exact hpost d' hd' t1 t2)
  have e1 : valueAt C d.value l tc = some (s' .temperature l) := dirichlet_value rfl v1
  refine ⟨e1, fun hne => ?_⟩
  have hsk : skips (obj d .deltaTemperature (.increment 1 0 true)) tc tp = false := by
    unfold skips; exact decide_eq_false hne
  have v2 := a3 _ _ _ hs2 hsk .deltaTemperature l l (hit _ rfl _) (by
    intro c' hc' l' hh
    obtain ⟨d', hd', hc''⟩ := List.mem_flatMap.mp hc'
    obtain ⟨t1, t2⟩ := (thermal_hits hc'' (hcp c' hc') hl).2 hh
    exact hpost d' hd' (.inl t1) t2)
  unfold nodeValue at v2
  simp only [obj] at v2
  obtain ⟨p, hp, v2⟩ := Outcome.bind_eq_ok.mp v2
  unfold evaluateParser at hp
  obtain ⟨prev, h1, hp⟩ := Outcome.bind_eq_ok.mp hp
  obtain ⟨cur, h2, hp⟩ := Outcome.bind_eq_ok.mp hp
  have e := ok_inj hp
  unfold incrementValue at v2
  split at v2
  · exact absurd v2 (by simp)
  · have e2 := ok_inj v2
    refine ⟨prev, valueAt_of_call h1, ?_⟩
    have h2' : valueAt C d.value l tc = some cur := valueAt_of_call h2
    rw [e1] at h2'
    injection h2' with h2'
    rw [← e2, ← e, h2']
    simp [hd]

/-- A temperature rising with time. -/
def heated : Definition :=
  { type := .prescribedTemperature, nodeSet := "B", coord := 0, value := fun _ _ _ t => some (3 + t) }

/-- A thermal flux of the given strength. -/
def fluxOf (q : ℝ) : Definition :=
  { type := .thermalFlux, nodeSet := "B", coord := 0, value := fun _ _ _ _ => some q }

example : makeConditions [heated] = .ok { boundary := boundaryOf heated } ∧
    lid twoNodes.owned 7 = some 1 ∧ Covers twoNodes.sets heated 7 0 ∧
    ∃ s', applyBoundary twoNodes (boundaryOf heated) 2 1 (fun _ _ => 0) = .ok s' := by
  refine ⟨rfl, rfl, ⟨rfl, [7], rfl, by simp⟩, ?_⟩
  have ha : apply twoNodes 2 1 (fun _ _ => 0) (obj heated .temperature .dirichlet) =
      .ok (write (fun _ _ => 0) .temperature 1 (3 + 2)) := by
    unfold apply
    rw [show skips (obj heated .temperature .dirichlet) 2 1 = false from rfl]
    rfl
  have hs : skips (obj heated .deltaTemperature (.increment 1 0 true)) 2 1 = false := by
    unfold skips
    exact decide_eq_false (by norm_num)
  have hi : ∀ u, ∃ r, nodeValue twoNodes (obj heated .deltaTemperature (.increment 1 0 true)) u 2 1 1 = .ok r := by
    intro u
    refine ⟨1 * ((3 + 2) - (3 + 0)) + 0 * ((3 + 2) - (3 + 0)) * (1 / (2 - 0)), ?_⟩
    unfold nodeValue
    refine Outcome.bind_eq_ok.mpr ⟨((3 + 2 : ℝ), (3 + 0 : ℝ)), ?_, ?_⟩
    · refine Outcome.bind_eq_ok.mpr ⟨3 + 0, rfl, Outcome.bind_eq_ok.mpr ⟨3 + 2, rfl, ?_⟩⟩
      simp [obj, heated]
    · show incrementValue 1 0 2 0 (3 + 2) (3 + 0) = _
      unfold incrementValue
      rw [if_neg (by norm_num)]
  obtain ⟨r, hr⟩ := hi (write (fun _ _ => 0) .temperature 1 (3 + 2) .u)
  refine ⟨_, foldlM_cons_ok.mpr ⟨_, ha, foldlM_cons_ok.mpr ⟨
    write (write (fun _ _ => 0) .temperature 1 (3 + 2)) .deltaTemperature 1 r, ?_, rfl⟩⟩⟩
  unfold apply
  rw [hs]
  refine foldlM_cons_ok.mpr ⟨_, ?_, rfl⟩
  exact Outcome.bind_eq_ok.mpr ⟨r, hr, rfl⟩

/-! ## C69: the flux is ignored -/

/-- **C69 is false**: a thermal flux condition sets the temperature to zero, whatever its function.
(Of several conditions the last one covering the node counts.) -/
theorem thermal_flux_sets_zero (C : Ctx) (ds : List Definition) (cs : Conditions)
    (hcs : makeConditions ds = .ok cs) (tc tp : ℝ) (s s' : Vecs)
    (h : applyBoundary C cs.boundary tc tp s = .ok s')
    (pre post : List Definition) (d : Definition) (hds : ds = pre ++ d :: post)
    (hd : d.type = .thermalFlux) (g l : Nat) (hl : lid C.owned g = some l)
    (hcov : Covers C.sets d g 0)
    (hpost : ∀ d' ∈ post, Thermal d'.type → ¬ Covers C.sets d' g 0) :
    s' .temperature l = 0 := by
  obtain ⟨hbd, _, hco, _⟩ := makeConditions_ok hcs
  have htgt : ∀ c ∈ cs.boundary, c.target ≠ .u := fun c hc =>
    (boundary_target (ds := ds) (by rw [← hbd]; exact hc)).1
  obtain ⟨_, _, a3⟩ := applyAll_ok cs.boundary htgt hco _ _ h
  have hof : boundaryOf d = [obj d .temperature .neumann] := by
    unfold boundaryOf; rw [hd]
  have hs1 : cs.boundary = pre.flatMap boundaryOf ++ obj d .temperature .neumann ::
      post.flatMap boundaryOf := by
    rw [hbd, hds, List.flatMap_append, List.flatMap_cons, hof]; rfl
  have hcp : ∀ c' ∈ post.flatMap boundaryOf, c'.coord < dim c'.target := fun c' hc' =>
    hco c' (by rw [hs1]; exact List.mem_append_right _ (List.mem_cons_of_mem _ hc'))
  obtain ⟨hk, nodes, hn, hg⟩ := hcov
  have v1 := a3 _ _ _ hs1 rfl .temperature l l ⟨rfl, by
      show l = l * 1 + (d.coord : Nat)
      omega, nodes, g, hn, hg, hl⟩ (by
    intro c' hc' l' hh
    obtain ⟨d', hd', hc''⟩ := List.mem_flatMap.mp hc'
    obtain ⟨t1, t2⟩ := (thermal_hits hc'' (hcp c' hc') hl).1 hh
    exact hpost d' hd' t1 t2)
  exact (ok_inj v1).symm

/-- **C69 is false**: two different fluxes have the same effect, and that is to set the temperature
from 20 to 0. -/
theorem flux_ignored : ∃ (C : Ctx) (s s' : Vecs), s .temperature 1 = 20 ∧ s' .temperature 1 = 0 ∧
    ∀ q : ℝ, ∃ cs, makeConditions [fluxOf q] = .ok cs ∧
      Covers C.sets (fluxOf q) 7 0 ∧ lid C.owned 7 = some 1 ∧
      applyBoundary C cs.boundary 2 1 s = .ok s' := by
  refine ⟨twoNodes, fun _ _ => 20, write (fun _ _ => 20) .temperature 1 0, rfl, write_hit _ _ _ _, ?_⟩
  intro q
  refine ⟨{ boundary := boundaryOf (fluxOf q) }, rfl, ⟨rfl, [7], rfl, by simp⟩, rfl, ?_⟩
  refine foldlM_cons_ok.mpr ⟨_, ?_, rfl⟩
  unfold apply
  rw [show skips (obj (fluxOf q) .temperature .neumann) 2 1 = false from rfl]
  rfl

end Verif.BC
