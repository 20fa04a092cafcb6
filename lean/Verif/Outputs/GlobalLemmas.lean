import Verif.Outputs.GlobalSpec
import Verif.Outputs.Lemmas
import Verif.Tangent.Lemmas
import Verif.Mech.Frame
import Verif.Mech.Defined
import Mathlib.Tactic.Linarith
import Mathlib.Tactic.LinearCombination
import Mathlib.Tactic.FieldSimp

/-! Helper lemmas for momentum, energies and the critical time step. -/

noncomputable section

namespace Verif.Outputs

open Verif Verif.Neigh Verif.Mech Verif.Tangent
open scoped Classical

theorem accumulate_eq (s : State) (f : Nat → ℝ) : s.accumulate f = ((List.range s.owned).map f).sum := by
  rw [State.accumulate]
  have : ∀ (l : List Nat) (a : ℝ), l.foldl (fun a i => a + f i) a = a + (l.map f).sum := by
    intro l
    induction l with
    | nil => intro a; simp
    | cons i l ih => intro a; rw [List.foldl_cons, ih, List.map_cons, List.sum_cons, add_assoc]
  rw [this, zero_add]

theorem sum_comp {α : Type} (f : α → V3) (c : Fin 3) : ∀ l : List α,
    (l.map f).sum c = (l.map fun a => f a c).sum
  | [] => rfl
  | a :: l => by
    rw [List.map_cons, List.sum_cons, List.map_cons, List.sum_cons, ← sum_comp f c l]
    rfl

theorem sumBlock_comp (f : State → Nat → V3) (b : List State) (c : Fin 3) :
    sumBlock f b c = (b.map fun s => s.accumulate fun i => f s i c).sum := by
  rw [sumBlock, sum_comp]
  congr 1
  refine List.map_congr_left fun s _ => ?_
  rw [accumulate_eq, sum_comp]

theorem blockMomentum_eq (f : State → Nat → V3) {b : List State} (hb : b ≠ []) :
    blockMomentum f b = .ok (len (sumBlock f b)) := by
  rw [blockMomentum, sumAll_ok (by simpa using hb), Outcome.ok_bind, sumAll_ok (by simpa using hb),
    Outcome.ok_bind, sumAll_ok (by simpa using hb), Outcome.ok_bind, len, sumBlock_comp, sumBlock_comp,
    sumBlock_comp]

theorem globalMomentum_eq (f : State → Nat → V3) : ∀ {run : List (List State)}, (∀ b ∈ run, b ≠ []) →
    globalMomentum f run = .ok (run.map fun b => len (sumBlock f b)).sum
  | [], _ => rfl
  | b :: bs, h => by
    rw [globalMomentum, blockMomentum_eq f (h b (by simp)), Outcome.ok_bind,
      globalMomentum_eq f fun b' hb' => h b' (List.mem_cons_of_mem _ hb')]
    rfl

theorem len_zero : len (0 : V3) = 0 := len_eq_zero.mpr rfl

theorem len_nonneg (d : V3) : 0 ≤ len d := Real.sqrt_nonneg _

theorem len_sq (d : V3) : len d * len d = d 0 * d 0 + d 1 * d 1 + d 2 * d 2 := by
  have h0 := mul_self_nonneg (d 0)
  have h1 := mul_self_nonneg (d 1)
  have h2 := mul_self_nonneg (d 2)
  exact Real.mul_self_sqrt (by linarith)

theorem len_neg (d : V3) : len (-d) = len d := by
  unfold len
  simp

theorem len_add_le (a b : V3) : len (a + b) ≤ len a + len b := by
  have hd : a 0 * b 0 + a 1 * b 1 + a 2 * b 2 ≤ len a * len b := by
    refine le_of_sq_le_sq ?_ (mul_nonneg (len_nonneg a) (len_nonneg b))
    have e : (len a * len b) ^ 2 = (len a * len a) * (len b * len b) := by ring
    rw [e, len_sq, len_sq]
    nlinarith [sq_nonneg (a 0 * b 1 - a 1 * b 0), sq_nonneg (a 1 * b 2 - a 2 * b 1),
      sq_nonneg (a 0 * b 2 - a 2 * b 0)]
  refine le_of_sq_le_sq ?_ (add_nonneg (len_nonneg a) (len_nonneg b))
  have e1 : len (a + b) ^ 2 = len (a + b) * len (a + b) := by ring
  have e2 : (len a + len b) ^ 2 = len a * len a + len b * len b + 2 * (len a * len b) := by ring
  rw [e1, e2, len_sq, len_sq, len_sq]
  simp only [Pi.add_apply]
  nlinarith

theorem len_sum_le {α : Type} (f : α → V3) : ∀ l : List α, len (l.map f).sum ≤ (l.map fun a => len (f a)).sum
  | [] => by simp [len_zero]
  | a :: l => by
    rw [List.map_cons, List.sum_cons, List.map_cons, List.sum_cons]
    exact (len_add_le _ _).trans (by linarith [len_sum_le f l])

theorem sumBlocks_eq (f : State → Nat → ℝ) : ∀ {run : List (List State)}, (∀ b ∈ run, b ≠ []) →
    sumBlocks (fun s => s.accumulate (f s)) run = .ok (sumPoints f run)
  | [], _ => rfl
  | b :: bs, h => by
    rw [sumBlocks, sumAll_ok (by simpa using h b (by simp)), Outcome.ok_bind,
      sumBlocks_eq f fun b' hb' => h b' (List.mem_cons_of_mem _ hb'), Outcome.ok_bind, sumPoints,
      sumPoints, List.map_cons, List.sum_cons, sumBlock]
    congr 3
    refine List.map_congr_left fun s _ => ?_
    rw [accumulate_eq]

theorem linear_eq : State.linear = momentum := by
  funext s i c
  simp [State.linear, momentum, State.mass]

theorem angular_eq (s : State) (i : Nat) : s.angular i = -moment s i := by
  funext c
  rw [moment, State.angular, cross_apply]
  fin_cases c <;> simp [State.mass] <;> ring

/-! ### Non-negative sums -/

theorem sum_nonneg' {α : Type} {f : α → ℝ} : ∀ {l : List α}, (∀ a ∈ l, 0 ≤ f a) → 0 ≤ (l.map f).sum
  | [], _ => by simp
  | a :: l, h => by
    rw [List.map_cons, List.sum_cons]
    exact add_nonneg (h a (by simp)) (sum_nonneg' fun x hx => h x (List.mem_cons_of_mem _ hx))

theorem sum_eq_zero' {α : Type} {f : α → ℝ} : ∀ {l : List α}, (∀ a ∈ l, 0 ≤ f a) →
    ((l.map f).sum = 0 ↔ ∀ a ∈ l, f a = 0)
  | [], _ => by simp
  | a :: l, h => by
    have h1 := h a (by simp)
    have h2 : 0 ≤ (l.map f).sum := sum_nonneg' fun x hx => h x (List.mem_cons_of_mem _ hx)
    rw [List.map_cons, List.sum_cons, add_eq_zero_iff_of_nonneg h1 h2,
      sum_eq_zero' fun x hx => h x (List.mem_cons_of_mem _ hx), List.forall_mem_cons]

theorem sumPoints_nonneg {f : State → Nat → ℝ} {run : List (List State)}
    (h : ∀ b ∈ run, ∀ s ∈ b, ∀ i < s.owned, 0 ≤ f s i) : 0 ≤ sumPoints f run :=
  sum_nonneg' fun b hb => sum_nonneg' fun s hs => sum_nonneg' fun i hi =>
    h b hb s hs i (List.mem_range.mp hi)

theorem sumPoints_eq_zero {f : State → Nat → ℝ} {run : List (List State)}
    (h : ∀ b ∈ run, ∀ s ∈ b, ∀ i < s.owned, 0 ≤ f s i) :
    sumPoints f run = 0 ↔ ∀ b ∈ run, ∀ s ∈ b, ∀ i < s.owned, f s i = 0 := by
  have h' : ∀ b ∈ run, ∀ s ∈ b, ∀ i ∈ List.range s.owned, 0 ≤ f s i := fun b hb s hs i hi =>
    h b hb s hs i (List.mem_range.mp hi)
  rw [sumPoints, sum_eq_zero' (f := sumBlock f) fun b hb => sum_nonneg' fun s hs => sum_nonneg' (h' b hb s hs)]
  refine forall₂_congr fun b hb => ?_
  rw [sumBlock, sum_eq_zero' fun s hs => sum_nonneg' (h' b hb s hs)]
  refine forall₂_congr fun s hs => ?_
  rw [sum_eq_zero' (h' b hb s hs)]
  exact ⟨fun H i hi => H i (List.mem_range.mpr hi), fun H i hi => H i (List.mem_range.mp hi)⟩

/-! ### Strain energy -/

/-- Strain energy density of a point with neighbors `ns`, as computed. -/
def strainDensityAt (s : State) (i : Nat) (ns : List Nat) : ℝ :=
  0.5 * s.bulk * s.theta i * s.theta i + 0.5 * (15 * s.shear / s.w i) * s.We i ns

theorem strainFrom_eq (s : State) : ∀ (nbs : List (List Nat)) (i : Nat),
    (∀ k, i ≤ k → k < i + nbs.length → s.w k ≠ 0) →
    s.strainFrom i nbs = .ok ((nbs.zipIdx i).map fun x => s.vol x.2 * strainDensityAt s x.2 x.1)
  | [], _, _ => rfl
  | ns :: nbs, i, h => by
    have h0 : s.w i ≠ 0 := h i le_rfl (by simp)
    have ih := strainFrom_eq s nbs (i + 1) fun k h1 h2 => h k (by omega) (by simp; omega)
    have hd : s.strainDensity i ns = .ok (strainDensityAt s i ns) := by
      rw [State.strainDensity, if_neg h0]
      rfl
    rw [State.strainFrom, hd, Outcome.ok_bind, ih]
    rfl

theorem strain_eq {s : State} {nbs : List (List Nat)} (h : s.HasNeighbors nbs) :
    s.strain = .ok (nbs.zipIdx.map fun x => s.vol x.2 * strainDensityAt s x.2 x.1) := by
  obtain ⟨h1, h2, h3⟩ := h
  have := neighborLists_mid nbs [] 0 rfl
  rw [List.nil_append] at this
  rw [State.strain, h1, h2, this, Outcome.ok_bind]
  exact strainFrom_eq s nbs 0 fun k _ hk => h3 k (by simpa using hk)

/-- The sum of the strain energies of a run whose local fields are given by `e`. -/
theorem globalStrain_eq {e : State → List ℝ} : ∀ {run : List (List State)}, (∀ b ∈ run, b ≠ []) →
    (∀ b ∈ run, ∀ s ∈ b, s.strain = .ok (e s)) →
    globalStrain run = .ok (run.map fun b => (b.map fun s => (e s).sum).sum).sum
  | [], _, _ => rfl
  | b :: bs, h, he => by
    have hc : collect (fun s : State => do
        let e ← s.strain
        .ok (e.foldl (· + ·) 0)) b = .ok (b.map fun s => (e s).sum) := by
      refine collect_eq fun s hs => ?_
      rw [he b (by simp) s hs, Outcome.ok_bind, foldl_add, zero_add]
    rw [globalStrain, hc, Outcome.ok_bind, sumAll_ok (by simpa using h b (by simp)), Outcome.ok_bind,
      globalStrain_eq (fun b' hb' => h b' (List.mem_cons_of_mem _ hb'))
        fun b' hb' => he b' (List.mem_cons_of_mem _ hb')]
    rfl

theorem We_eq (s : State) (i : Nat) (ns : List Nat) : s.We i ns = (ns.map fun j =>
    (len (s.y j - s.y i) - len (s.x j - s.x i) - s.theta i * len (s.x j - s.x i) / 3) * s.vol j).sum := by
  have : ∀ (f : Nat → ℝ) (l : List Nat) (a : ℝ), l.foldl (fun a i => a + f i) a = a + (l.map f).sum := by
    intro f l
    induction l with
    | nil => intro a; simp
    | cons i l ih => intro a; rw [List.foldl_cons, ih, List.map_cons, List.sum_cons, add_assoc]
  rw [State.We, this, zero_add]
  simp

theorem We_zero {s : State} {i : Nat} {ns : List Nat} (h : ∀ j ∈ ns,
    len (s.y j - s.y i) - len (s.x j - s.x i) - s.theta i * len (s.x j - s.x i) / 3 = 0) : s.We i ns = 0 := by
  rw [We_eq]
  have : ∀ l : List Nat, (∀ j ∈ l,
      len (s.y j - s.y i) - len (s.x j - s.x i) - s.theta i * len (s.x j - s.x i) / 3 = 0) →
      (l.map fun j => (len (s.y j - s.y i) - len (s.x j - s.x i) -
        s.theta i * len (s.x j - s.x i) / 3) * s.vol j).sum = 0 := by
    intro l
    induction l with
    | nil => intro _; rfl
    | cons j l ih =>
      intro h
      rw [List.map_cons, List.sum_cons, h j (by simp), ih fun k hk => h k (List.mem_cons_of_mem _ hk)]
      ring
  exact this ns h

/-! ### Critical time step -/

theorem springConstant_eq {K d : ℝ} (hd : 0 < d) : springConstant K d = .ok (18 * K / (Real.pi * d ^ 4)) := by
  have hpi := Real.pi_pos
  rw [springConstant, if_neg (by positivity)]
  congr 2
  ring

theorem denominator_eq (M : Mesh) (c : ℝ) (i : Nat) : ∀ (ns : List Nat) (a : ℝ), (∀ j ∈ ns, M.x i ≠ M.x j) →
    M.denominator c i ns a = .ok (a + (ns.map fun j => M.vol j * c / len (M.x i - M.x j)).sum)
  | [], a, _ => by simp [Mesh.denominator]
  | j :: ns, a, h => by
    have h0 : len (M.x i - M.x j) ≠ 0 := fun e => h j (by simp) (sub_eq_zero.mp (len_eq_zero.mp e))
    rw [Mesh.denominator, if_neg h0, denominator_eq M c i ns _ fun k hk => h k (List.mem_cons_of_mem _ hk),
      List.map_cons, List.sum_cons, add_assoc]

theorem len_pos {d : V3} (h : d ≠ 0) : 0 < len d :=
  lt_of_le_of_ne (len_nonneg d) fun e => h (len_eq_zero.mp e.symm)

theorem sum_pos' {α : Type} {f : α → ℝ} {l : List α} (hne : l ≠ []) (h : ∀ a ∈ l, 0 < f a) :
    0 < (l.map f).sum := by
  cases l with
  | nil => exact absurd rfl hne
  | cons a l =>
    rw [List.map_cons, List.sum_cons]
    exact add_pos_of_pos_of_nonneg (h a (by simp)) (sum_nonneg' fun x hx => (h x (List.mem_cons_of_mem _ hx)).le)

/-- The estimate of the local mesh. -/
def Mesh.estimate (M : Mesh) (i : Nat) (ns : List Nat) : ℝ :=
  if 0 < ns.length then Real.sqrt (2 * M.density / (ns.map fun j =>
    M.vol j * (18 * M.bulk / (Real.pi * M.horizon (M.x i) ^ 4)) / len (M.x i - M.x j)).sum) else noLimit

/-- Local form of `MeshBlock.Regular`. -/
structure Mesh.Regular (M : Mesh) (nbs : List (List Nat)) : Prop where
  density : 0 < M.density
  bulk : 0 < M.bulk
  horizon : ∀ x, 0 < M.horizon x
  vol : ∀ p, 0 < M.vol p
  owned : M.owned = nbs.length
  list : M.list = encode nbs
  distinct : ∀ (i : Nat) (ns : List Nat), nbs[i]? = some ns → ∀ j ∈ ns, M.x i ≠ M.x j

theorem Mesh.sum_pos {M : Mesh} (hK : 0 < M.bulk) (hh : ∀ x, 0 < M.horizon x) (hv : ∀ p, 0 < M.vol p)
    {i : Nat} {ns : List Nat} (hd : ∀ j ∈ ns, M.x i ≠ M.x j) (hne : ns ≠ []) :
    0 < (ns.map fun j =>
      M.vol j * (18 * M.bulk / (Real.pi * M.horizon (M.x i) ^ 4)) / len (M.x i - M.x j)).sum := by
  refine sum_pos' hne fun j hj => ?_
  have h1 := len_pos (sub_ne_zero.mpr (hd j hj))
  have h2 := hh (M.x i)
  have h3 := hv j
  have hpi := Real.pi_pos
  positivity

theorem Mesh.pointStep_eq {M : Mesh} (hρ : 0 < M.density) (hK : 0 < M.bulk) (hh : ∀ x, 0 < M.horizon x)
    (hv : ∀ p, 0 < M.vol p) {i : Nat} {ns : List Nat} (hd : ∀ j ∈ ns, M.x i ≠ M.x j) :
    M.pointStep i ns = .ok (M.estimate i ns) ∧ 0 < M.estimate i ns := by
  rw [Mesh.pointStep, springConstant_eq (hh _), Outcome.ok_bind, denominator_eq M _ i ns 0 hd,
    Outcome.ok_bind, zero_add, Mesh.estimate]
  by_cases hl : 0 < ns.length
  · rw [if_pos hl, if_pos hl]
    have hpos := Mesh.sum_pos hK hh hv hd (List.length_pos_iff.mp hl)
    rw [stableStep, if_neg (ne_of_gt hpos), if_neg (not_lt.mpr (div_nonneg (by linarith) hpos.le))]
    exact ⟨rfl, Real.sqrt_pos.mpr (div_pos (by linarith) hpos)⟩
  · rw [if_neg hl, if_neg hl]
    exact ⟨rfl, by unfold noLimit; positivity⟩

theorem Mesh.stepLoop_eq {M : Mesh} (hρ : 0 < M.density) (hK : 0 < M.bulk) (hh : ∀ x, 0 < M.horizon x)
    (hv : ∀ p, 0 < M.vol p) : ∀ (nbs : List (List Nat)) (i : Nat) (a : ℝ),
    (∀ x ∈ nbs.zipIdx i, ∀ j ∈ x.1, M.x x.2 ≠ M.x j) →
    M.stepLoop i nbs a = .ok (((nbs.zipIdx i).map fun x => M.estimate x.2 x.1).foldl min a)
  | [], _, _, _ => rfl
  | ns :: nbs, i, a, h => by
    have h1 := (Mesh.pointStep_eq hρ hK hh hv (i := i) (ns := ns) (h (ns, i) (by simp))).1
    have e : ∀ t : ℝ, (if t < a then t else a) = min a t := fun t => by
      rw [← step_min]
      rfl
    rw [Mesh.stepLoop, h1, Outcome.ok_bind, e, Mesh.stepLoop_eq hρ hK hh hv nbs (i + 1) _
      fun x hx => h x (by rw [List.zipIdx_cons]; exact List.mem_cons_of_mem _ hx),
      List.zipIdx_cons, List.map_cons, List.foldl_cons]

theorem Mesh.localStep_eq {M : Mesh} {nbs : List (List Nat)} (R : M.Regular nbs) :
    M.localStep = .ok ((nbs.zipIdx.map fun x => M.estimate x.2 x.1).foldl min noLimit) := by
  have := neighborLists_mid nbs [] 0 rfl
  rw [List.nil_append] at this
  rw [Mesh.localStep, R.owned, R.list, this, Outcome.ok_bind]
  refine Mesh.stepLoop_eq R.density R.bulk R.horizon R.vol nbs 0 noLimit fun x hx => ?_
  exact R.distinct x.2 x.1 (List.mem_zipIdx_iff_getElem?.mp hx)

theorem getD_of_getElem? {l : List Nat} {i p : Nat} (h : l[i]? = some p) : l.getD i 0 = p := by
  rw [List.getD_eq_getElem?_getD, h]
  rfl

/-- The neighborhood of a point by global id, when its local ids are valid. -/
theorem hood_eq {P : Part} (hv : P.Valid) {i : Nat} {ns : List Nat} (h : P.nbs[i]? = some ns) :
    P.hood i ns = P.overlap.getD i 0 :: ns.map fun j => P.overlap.getD j 0 := by
  have hmem : ns ∈ P.nbs := List.mem_of_getElem? h
  have hi : i < P.overlap.length := (List.getElem?_eq_some_iff.mp h).1.trans_le hv.1
  have key : ∀ l : List Nat, (∀ j ∈ l, j < P.overlap.length) →
      l.filterMap (fun i => P.overlap[i]?) = l.map fun j => P.overlap.getD j 0 := by
    intro l
    induction l with
    | nil => intro _; rfl
    | cons j l ih =>
      intro hl
      have hj := hl j (by simp)
      rw [List.filterMap_cons_some (List.getElem?_eq_getElem hj), ih fun k hk => hl k (List.mem_cons_of_mem _ hk),
        List.map_cons, getD_of_getElem? (List.getElem?_eq_getElem hj)]
  rw [Part.hood, key _ fun j hj => ?_, List.map_cons]
  rcases List.mem_cons.mp hj with rfl | hj
  · exact hi
  · exact hv.2 ns hmem j hj

theorem mem_allHoods {parts : List Part} {P : Part} (hP : P ∈ parts) {i : Nat} {ns : List Nat}
    (h : P.nbs[i]? = some ns) : P.hood i ns ∈ allHoods parts :=
  List.mem_flatMap.mpr ⟨P, hP, List.mem_map.mpr ⟨(ns, i), List.mem_zipIdx_iff_getElem?.mpr h, rfl⟩⟩

theorem piece_regular {B : MeshBlock} (R : B.Regular) {P : Part} (hP : P ∈ B.parts) :
    (B.piece P).Regular P.nbs := by
  refine ⟨R.density, R.bulk, R.horizon, fun p => R.vol _, rfl, rfl, fun i ns h j hj => ?_⟩
  have h1 := hood_eq (R.valid P hP) h
  exact R.distinct _ (mem_allHoods hP h) _ _ h1 _ (List.mem_map_of_mem hj)

theorem piece_estimate (B : MeshBlock) (P : Part) (i : Nat) (ns : List Nat) :
    (B.piece P).estimate i ns = if 0 < ns.length then
      B.estimate (P.overlap.getD i 0) (ns.map fun j => P.overlap.getD j 0) else noLimit := by
  rw [Mesh.estimate, MeshBlock.estimate, List.map_map]
  rfl

/-- The step of a block is the least of all estimates and `1.0e50`. -/
theorem blockStep_eq {B : MeshBlock} (R : B.Regular) :
    ∃ t, blockStep B.pieces = .ok t ∧ IsLeast (insert noLimit B.Estimates) t := by
  have hc : collect Mesh.localStep B.pieces = .ok (B.parts.map fun P =>
      (P.nbs.zipIdx.map fun x => (B.piece P).estimate x.2 x.1).foldl min noLimit) := by
    have h1 : collect (fun P => (B.piece P).localStep) B.parts = .ok (B.parts.map fun P =>
        (P.nbs.zipIdx.map fun x => (B.piece P).estimate x.2 x.1).foldl min noLimit) :=
      collect_eq fun P hP => Mesh.localStep_eq (piece_regular R hP)
    have h2 : ∀ l : List Part, collect Mesh.localStep (l.map B.piece) = collect (fun P => (B.piece P).localStep) l := by
      intro l
      induction l with
      | nil => rfl
      | cons P l ih => rw [List.map_cons, collect, collect, ih]
    rw [MeshBlock.pieces, h2, h1]
  obtain ⟨t, ht, htm, htl⟩ := minAll_ok (l := B.parts.map fun P =>
    (P.nbs.zipIdx.map fun x => (B.piece P).estimate x.2 x.1).foldl min noLimit) (by simpa using R.parts)
  rw [blockStep, hc, Outcome.ok_bind, ht]
  have hval : ∀ P ∈ B.parts, ∀ x ∈ P.nbs.zipIdx,
      (B.piece P).estimate x.2 x.1 ∈ insert noLimit B.Estimates := by
    intro P hP x hx
    have hx' := List.mem_zipIdx_iff_getElem?.mp hx
    rw [piece_estimate]
    by_cases hl : 0 < x.1.length
    · rw [if_pos hl]
      right
      refine ⟨_, _, ?_, ?_, rfl⟩
      · simpa using List.length_pos_iff.mp hl
      · rw [← hood_eq (R.valid P hP) hx']
        exact mem_allHoods hP hx'
    · rw [if_neg hl]
      left
      rfl
  refine ⟨t, rfl, ?_, ?_⟩
  · obtain ⟨P, hP, e⟩ := List.mem_map.mp htm
    rcases foldl_min_mem (l := P.nbs.zipIdx.map fun x => (B.piece P).estimate x.2 x.1) (a := noLimit) with h | h
    · left
      rw [← e]
      exact h
    · obtain ⟨x, hx, e'⟩ := List.mem_map.mp h
      rw [← e, ← e']
      exact hval P hP x hx
  · rintro v (rfl | ⟨p, ns, hne, hm, rfl⟩)
    · obtain ⟨P, hP, e⟩ := List.mem_map.mp htm
      rw [← e]
      exact ((le_foldl_min (a := noLimit)).mp le_rfl).1
    · obtain ⟨P, hP, h⟩ := List.mem_flatMap.mp hm
      obtain ⟨x, hx, e⟩ := List.mem_map.mp h
      have hx' := List.mem_zipIdx_iff_getElem?.mp hx
      have e : P.hood x.2 x.1 = p :: ns := e
      rw [hood_eq (R.valid P hP) hx'] at e
      injection e with e1 e2
      have h1 := htl _ (List.mem_map_of_mem hP)
      have h2 := ((le_foldl_min (a := noLimit)).mp h1).2 _ (List.mem_map_of_mem hx)
      have hl : 0 < x.1.length := by
        rw [← e2] at hne
        exact List.length_pos_iff.mpr (by simpa using hne)
      have h3 : (B.piece P).estimate x.2 x.1 = B.estimate p ns := by
        rw [piece_estimate, if_pos hl, e1, e2]
      rw [← h3]
      exact h2

theorem estimate_pos {B : MeshBlock} (R : B.Regular) {t : ℝ} (h : t ∈ insert noLimit B.Estimates) : 0 < t := by
  rcases h with rfl | ⟨p, ns, hne, hm, rfl⟩
  · unfold noLimit; positivity
  · refine Real.sqrt_pos.mpr (div_pos (by linarith [R.density]) (sum_pos' hne fun j hj => ?_))
    have h1 := len_pos (sub_ne_zero.mpr (R.distinct _ hm p ns rfl j hj))
    have h2 := R.horizon (B.x p)
    have h3 := R.vol j
    have h4 := R.bulk
    have hpi := Real.pi_pos
    positivity

theorem stepOverBlocks_eq : ∀ {run : List MeshBlock} {a : ℝ}, (∀ B ∈ run, B.Regular) → a ≤ noLimit →
    ∃ t, stepOverBlocks (run.map MeshBlock.pieces) a = .ok t ∧
      IsLeast (insert a {v | ∃ B ∈ run, v ∈ B.Estimates}) t
  | [], a, _, _ => ⟨a, rfl, by simp [IsLeast, lowerBounds]⟩
  | B :: bs, a, h, ha => by
    obtain ⟨u, hu, hul⟩ := blockStep_eq (h B (by simp))
    have e : (if u < a then u else a) = min a u := by
      rw [← step_min]
      rfl
    obtain ⟨t, ht, htm, htl⟩ := stepOverBlocks_eq (run := bs) (a := min a u)
      (fun B' hB' => h B' (List.mem_cons_of_mem _ hB')) ((min_le_left _ _).trans ha)
    rw [List.map_cons, stepOverBlocks, hu, Outcome.ok_bind, e]
    have hta : t ≤ min a u := htl (Set.mem_insert _ _)
    refine ⟨t, ht, ?_, ?_⟩
    · rcases htm with htm | ⟨B', hB', hv⟩
      · rcases min_choice a u with e | e
        · left
          rw [htm, e]
        · rcases hul.1 with hu' | hu'
          · left
            rw [htm, e, hu']
            refine le_antisymm ?_ ha
            rw [← hu', ← e]
            exact min_le_left _ _
          · right
            exact ⟨B, by simp, by rw [htm, e]; exact hu'⟩
      · right
        exact ⟨B', List.mem_cons_of_mem _ hB', hv⟩
    · rintro v (rfl | ⟨B', hB', hv⟩)
      · exact hta.trans (min_le_left _ _)
      · rcases List.mem_cons.mp hB' with rfl | hB'
        · exact (hta.trans (min_le_right _ _)).trans (hul.2 (Set.mem_insert_of_mem _ hv))
        · exact htl (Set.mem_insert_of_mem _ ⟨B', hB', hv⟩)

end Verif.Outputs
