import Verif.Assoc.Spec
import Verif.Correspondence.Lemmas
import Verif.Mech.Plastic
import Verif.Mech.FrameProps
import Verif.BC.Lemmas

/-!
# Bond-associated correspondence material: lemmas on the gradient weights
-/

noncomputable section

namespace Verif.Assoc

open Verif Verif.Neigh Verif.Mech Verif.Tensor MvPolynomial Matrix
open Verif.Correspondence (bondsAt addOuter identity mem_bondsAt foldl_addOuter)
open scoped Classical

/-! ### Stored values -/

theorem storeAll_other {α : Type} (f : Bond → α) (bs : List Bond) (a : Nat → α) {k : Nat}
    (h : ∀ b ∈ bs, b.b ≠ k) : storeAll f bs a k = a k := by
  unfold storeAll
  induction bs generalizing a with
  | nil => rfl
  | cons b bs ih =>
    rw [List.foldl_cons, ih _ fun b' hb' => h b' (List.mem_cons_of_mem _ hb'),
      Function.update_of_ne (h b List.mem_cons_self).symm]

theorem storeAll_get {α : Type} (f : Bond → α) (bs : List Bond) (a : Nat → α) (hn : (bs.map (·.b)).Nodup)
    {b : Bond} (h : b ∈ bs) : storeAll f bs a b.b = f b := by
  induction bs generalizing a with
  | nil => cases h
  | cons c bs ih =>
    rw [List.map_cons, List.nodup_cons] at hn
    show storeAll f bs (Function.update a c.b (f c)) b.b = f b
    rcases List.mem_cons.mp h with rfl | h
    · rw [storeAll_other, Function.update_self]
      intro b' hb' e
      exact hn.1 (List.mem_map.mpr ⟨b', hb', e⟩)
    · exact ih _ hn.2 h

/-! ### The moment matrix -/

/-- The matrix with influence `om`. -/
def momentOf (B : Body) (order : Nat) (om : Bond → ℝ) (bs : List Bond) :
    Matrix (Fin (dim order)) (Fin (dim order)) ℝ := fun i j =>
  (bs.map fun b => om b * B.volume b.j *
    qVector order (xi B b) (B.horizon b.i) i * qVector order (xi B b) (B.horizon b.i) j).sum

theorem moment_eq (B : Body) (order : Nat) (omega : Nat → ℝ) (om : Bond → ℝ) (bs : List Bond)
    (h : ∀ b ∈ bs, omega b.b = om b) : moment B order omega bs = momentOf B order om bs := by
  have key : ∀ (bs : List Bond) (M : Fin (dim order) → Fin (dim order) → ℝ),
      (∀ b ∈ bs, omega b.b = om b) →
      bs.foldl (fun M b => fun i j => M i j + omega b.b * B.volume b.j *
        qVector order (xi B b) (B.horizon b.i) i * qVector order (xi B b) (B.horizon b.i) j) M =
      fun i j => M i j + momentOf B order om bs i j := by
    intro bs
    induction bs with
    | nil => intro M _; funext i j; simp [momentOf]
    | cons b bs ih =>
      intro M h
      rw [List.foldl_cons, ih _ fun b' hb' => h b' (List.mem_cons_of_mem _ hb')]
      funext i j
      simp only [momentOf, List.map_cons, List.sum_cons]
      rw [h b List.mem_cons_self, add_assoc]
  refine (key bs _ h).trans ?_
  funext i j
  rw [zero_add]

theorem momentOf_symm (B : Body) (order : Nat) (om : Bond → ℝ) (bs : List Bond) :
    (momentOf B order om bs)ᵀ = momentOf B order om bs := by
  ext i j
  simp only [transpose_apply, momentOf]
  congr 1
  exact List.map_congr_left fun b _ => by ring

theorem momentOf_congr (B : Body) (order : Nat) {om om' : Bond → ℝ} {bs : List Bond} (h : ∀ b ∈ bs, om b = om' b) :
    momentOf B order om bs = momentOf B order om' bs := by
  funext i j
  unfold momentOf
  rw [List.map_congr_left fun b hb => by rw [h b hb]]

/-- The gradient weight of a bond computed afresh. -/
def freshPhi (B : Body) (D : Decompose) (order : Nat) (bondDamage : Nat → ℝ) (bs : List Bond) (p : Nat) (b : Bond) : V3 :=
  fun c => phiOf (invertAndCond D (momentOf B order (influenceOf B bondDamage) bs)
      (1 / 10 ^ 6 * B.horizon p * B.horizon p * B.horizon p)).2
    (influenceOf B bondDamage b) (B.horizon b.i) (qVector order (xi B b) (B.horizon b.i)) c

theorem freshPhi_congr (B : Body) (D : Decompose) (order : Nat) {d d' : Nat → ℝ} {bs : List Bond}
    (h : ∀ b ∈ bs, d b.b = d' b.b) (p : Nat) {b : Bond} (hb : b ∈ bs) :
    freshPhi B D order d bs p b = freshPhi B D order d' bs p b := by
  have e : ∀ b ∈ bs, influenceOf B d b = influenceOf B d' b := fun b hb => by
    unfold influenceOf; rw [h b hb]
  unfold freshPhi
  rw [momentOf_congr B order e, e b hb]

/-- The stored weights of a point are those its bond damage gives. -/
def Current (B : Body) (D : Decompose) (order : Nat) (d : Nat → ℝ) (bonds : List Bond) (w : Weights) (p : Nat) : Prop :=
  ∀ b ∈ bondsAt bonds p, w.omega b.b = influenceOf B d b ∧ w.phi b.b = freshPhi B D order d (bondsAt bonds p) p b

theorem bondsAt_nodup {bonds : List Bond} (hn : (bonds.map (·.b)).Nodup) (p : Nat) :
    ((bondsAt bonds p).map (·.b)).Nodup :=
  hn.sublist (List.filter_sublist.map _)

theorem bonds_inj {bonds : List Bond} (hn : (bonds.map (·.b)).Nodup) {b b' : Bond} (h : b ∈ bonds)
    (h' : b' ∈ bonds) (e : b.b = b'.b) : b = b' :=
  List.inj_on_of_nodup_map hn h h' e

theorem evaluate_current (B : Body) (D : Decompose) (order : Nat) (d : Nat → ℝ) {bonds : List Bond}
    (hn : (bonds.map (·.b)).Nodup) (s : Weights) (p : Nat) :
    Current B D order d bonds (evaluate B D order d (bondsAt bonds p) s p) p := by
  have ho : ∀ b ∈ bondsAt bonds p, storeAll (influenceOf B d) (bondsAt bonds p) s.omega b.b = influenceOf B d b :=
    fun b hb => storeAll_get _ _ _ (bondsAt_nodup hn p) hb
  intro b hb
  refine ⟨ho b hb, ?_⟩
  simp only [evaluate]
  rw [storeAll_get _ _ _ (bondsAt_nodup hn p) hb, moment_eq B order _ _ _ ho, ho b hb]
  rfl

theorem evaluate_other (B : Body) (D : Decompose) (order : Nat) (d : Nat → ℝ) {bonds : List Bond}
    (hn : (bonds.map (·.b)).Nodup) (s : Weights) {p q : Nat} (hpq : q ≠ p) :
    (evaluate B D order d (bondsAt bonds p) s p).flag q = s.flag q ∧
    ∀ b ∈ bondsAt bonds q, (evaluate B D order d (bondsAt bonds p) s p).omega b.b = s.omega b.b ∧
      (evaluate B D order d (bondsAt bonds p) s p).phi b.b = s.phi b.b := by
  refine ⟨Function.update_of_ne hpq _ _, fun b hb => ?_⟩
  have hd : ∀ c ∈ bondsAt bonds p, c.b ≠ b.b := by
    intro c hc e
    have hb' := List.mem_filter.mp hb
    have hc' := List.mem_filter.mp hc
    have := bonds_inj hn hc'.1 hb'.1 e
    subst this
    have h1 : c.i = q := by simpa using hb'.2
    have h2 : c.i = p := by simpa using hc'.2
    exact hpq (h1.symm.trans h2)
  exact ⟨storeAll_other _ _ _ hd, storeAll_other _ _ _ hd⟩

theorem evaluate_code (B : Body) (D : Decompose) (order : Nat) (d : Nat → ℝ) (bs : List Bond) (s : Weights) (p : Nat) :
    (evaluate B D order d bs s p).code = s.code := by
  simp [evaluate, invertAndCond]

/-- What the loop over the points does at a point. -/
theorem weights_fold (B : Body) (D : Decompose) (order : Nat) (d : Nat → ℝ) {bonds : List Bond}
    (hn : (bonds.map (·.b)).Nodup) (ps : List Nat) {s s' : Weights}
    (h : ps.foldlM (weightsPoint B D order d bonds) s = .ok s') :
    s'.code = s.code ∧ ∀ p,
      (p ∈ ps → s.flag p < 1 / 2 → B.horizon p ≠ 0 ∧ s'.flag p = 1 ∧ Current B D order d bonds s' p) ∧
      ((p ∉ ps ∨ ¬ s.flag p < 1 / 2) → s'.flag p = s.flag p ∧
        ∀ b ∈ bondsAt bonds p, s'.omega b.b = s.omega b.b ∧ s'.phi b.b = s.phi b.b) := by
  induction ps generalizing s with
  | nil =>
    cases h
    exact ⟨rfl, fun p => ⟨fun hp => by simp at hp, fun _ => ⟨rfl, fun b _ => ⟨rfl, rfl⟩⟩⟩⟩
  | cons q ps ih =>
    rw [List.foldlM_cons] at h
    obtain ⟨s1, h1, h2⟩ := Outcome.bind_eq_ok.mp h
    obtain ⟨hc, hp⟩ := ih h2
    unfold weightsPoint at h1
    by_cases hf : s.flag q < 1 / 2
    · rw [if_pos hf] at h1
      by_cases hh : B.horizon q = 0
      · rw [if_pos hh] at h1; cases h1
      rw [if_neg hh] at h1
      cases h1
      refine ⟨by rw [hc, evaluate_code], fun p => ?_⟩
      obtain ⟨ha, hb⟩ := hp p
      by_cases hpq : p = q
      · subst hpq
        have hfl : (evaluate B D order d (bondsAt bonds p) s p).flag p = 1 := Function.update_self _ _ _
        have hb' := hb (Or.inr (by rw [hfl]; norm_num))
        refine ⟨fun _ _ => ⟨hh, by rw [hb'.1, hfl], fun b hbm => ?_⟩, fun hx => ?_⟩
        · rw [(hb'.2 b hbm).1, (hb'.2 b hbm).2]
          exact evaluate_current B D order d hn s p b hbm
        · rcases hx with hx | hx
          · exact absurd List.mem_cons_self hx
          · exact absurd hf hx
      · obtain ⟨e1, e2⟩ := evaluate_other B D order d hn s hpq
        rw [e1] at ha hb
        refine ⟨fun hm hfp => ha ((List.mem_cons.mp hm).resolve_left hpq) hfp, fun hx => ?_⟩
        have hb' := hb (hx.imp (fun h hm => h (List.mem_cons_of_mem _ hm)) id)
        refine ⟨hb'.1, fun b hbm => ?_⟩
        rw [(hb'.2 b hbm).1, (hb'.2 b hbm).2]
        exact e2 b hbm
    · rw [if_neg hf] at h1
      cases h1
      refine ⟨hc, fun p => ?_⟩
      obtain ⟨ha, hb⟩ := hp p
      refine ⟨fun hm hfp => ha ((List.mem_cons.mp hm).resolve_left ?_) hfp, fun hx => hb ?_⟩
      · rintro rfl; exact hf hfp
      · exact hx.imp (fun h hm => h (List.mem_cons_of_mem _ hm)) id

theorem updateFlag_at (dN dNP1 : Nat → ℝ) (n : Nat) (f : Nat → ℝ) {p : Nat} (hp : p < n) :
    updateFlag dN dNP1 n f p = if 1 / 10 ^ 15 < dNP1 p - dN p then 0 else f p := by
  have key : ∀ (ps : List Nat) (f : Nat → ℝ), ps.foldl (fun f p =>
      if 1 / 10 ^ 15 < dNP1 p - dN p then Function.update f p (0 : ℝ) else f) f p =
      if p ∈ ps ∧ 1 / 10 ^ 15 < dNP1 p - dN p then 0 else f p := by
    intro ps
    induction ps with
    | nil => intro f; simp
    | cons q ps ih =>
      intro f
      rw [List.foldl_cons, ih]
      by_cases hq : p = q
      · subst hq
        by_cases hg : 1 / 10 ^ 15 < dNP1 p - dN p
        · by_cases hm : p ∈ ps <;> simp only [hg, hm, List.mem_cons_self, and_true, if_true, and_self, if_false,
            Function.update_self]
        · simp only [hg, and_false, if_false]
      · by_cases hm : p ∈ ps ∧ 1 / 10 ^ 15 < dNP1 p - dN p
        · rw [if_pos hm, if_pos ⟨List.mem_cons_of_mem _ hm.1, hm.2⟩]
        · rw [if_neg hm, if_neg (c := p ∈ q :: ps ∧ _) (fun h => hm ⟨(List.mem_cons.mp h.1).resolve_left hq, h.2⟩)]
          split
          · exact Function.update_of_ne hq _ _
          · rfl
  unfold updateFlag
  rw [key]
  simp [hp]

/-! ### Parts of an evaluation -/

theorem gradientWeights_fold {B : Body} {D : Decompose} {order : Nat} {d : Nat → ℝ} {n : Nat} {bonds : List Bond}
    {s w : Weights} (h : gradientWeights B D order d n bonds s = .ok w) :
    order ≠ 0 ∧ (List.range n).foldlM (weightsPoint B D order d bonds) { s with code := 0 } = .ok w := by
  unfold gradientWeights at h
  split at h
  · cases h
  · next ho => exact ⟨ho, h⟩

theorem precompute_parts {B : Body} {D : Decompose} {order : Nat} {H : Harm} {u v : Nat → V3} {n : Nat}
    {bonds : List Bond} {w : Weights} {g : Ghosts} {P : Pre} (h : precompute B D order H u v n bonds w g = .ok P) :
    gradientWeights B D order H.bondDamage n bonds
      { w with flag := updateFlag H.damageN H.damageNP1 n w.flag } = .ok P.weights ∧
    (∀ p, P.grad p = if p < n then gradientAt B P.weights.phi identity u (bondsAt bonds p) else g.grad p) ∧
    (∀ p, P.gradDot p = if p < n then gradientAt B P.weights.phi zero v (bondsAt bonds p) else g.gradDot p) := by
  unfold precompute at h
  obtain ⟨w', h1, h2⟩ := Outcome.bind_eq_ok.mp h
  split at h2
  · cases h2
  · cases h2
    exact ⟨h1, fun _ => rfl, fun _ => rfl⟩

theorem evaluation_parts {B : Body} {D : Decompose} {order : Nat} {U : Update} {dt : ℝ} {H : Harm} {u y v : Nat → V3}
    {g : Ghosts} {s : State} {nbs : List (List Nat)} {r : Result}
    (h : evaluation B D order U dt H u y v g s nbs.length (encode nbs) = .ok r) :
    precompute B D order H u v nbs.length (bondsOf nbs) s.weights g = .ok r.pre ∧
    computeForce B U dt y v s r.pre nbs.length (bondsOf nbs) = .ok r := by
  unfold evaluation at h
  rw [visited_encode, Outcome.ok_bind] at h
  obtain ⟨P, h1, h2⟩ := Outcome.bind_eq_ok.mp h
  have : r.pre = P := by
    have h2' := h2
    unfold computeForce at h2'
    split at h2'
    · cases h2'
    · obtain ⟨k, _, h3⟩ := Outcome.bind_eq_ok.mp h2'
      obtain ⟨sg, _, h4⟩ := Outcome.bind_eq_ok.mp h3
      obtain ⟨S, _, h5⟩ := Outcome.bind_eq_ok.mp h4
      obtain ⟨f, _, h6⟩ := Outcome.bind_eq_ok.mp h5
      cases h6
      rfl
  rw [this]
  exact ⟨h1, h2⟩

/-! ### Weights in a run -/

/-- The weights of all points are current, and flagged so. -/
def Sound (B : Body) (D : Decompose) (order : Nat) (d : Nat → ℝ) (nbs : List (List Nat)) (w : Weights) : Prop :=
  ∀ p < nbs.length, w.flag p = 1 ∧ Current B D order d (bondsOf nbs) w p

theorem sound_pre {B : Body} {D : Decompose} {order : Nat} {H : Harm} {u v : Nat → V3} {g : Ghosts} {w : Weights}
    {nbs : List (List Nat)} {P : Pre} {d : Nat → ℝ} (hr : Reported nbs d H) (hs : Sound B D order d nbs w)
    (h : precompute B D order H u v nbs.length (bondsOf nbs) w g = .ok P) :
    Sound B D order H.bondDamage nbs P.weights := by
  obtain ⟨hg, -, -⟩ := precompute_parts h
  obtain ⟨-, hf⟩ := gradientWeights_fold hg
  obtain ⟨-, hp⟩ := weights_fold B D order H.bondDamage (bondsOf_nodup nbs) _ hf
  intro p hlt
  obtain ⟨ha, hb⟩ := hp p
  simp only [updateFlag_at _ _ _ _ hlt] at ha hb
  by_cases hgrow : 1 / 10 ^ 15 < H.damageNP1 p - H.damageN p
  · rw [if_pos hgrow] at ha
    exact (ha (List.mem_range.mpr hlt) (by norm_num)).2
  · rw [if_neg hgrow, (hs p hlt).1] at hb
    obtain ⟨e1, e2⟩ := hb (Or.inr (by norm_num))
    refine ⟨e1, fun b hbm => ?_⟩
    have hd : ∀ b ∈ bondsAt (bondsOf nbs) p, d b.b = H.bondDamage b.b := by
      intro b hbm
      have hi : b.i = p := (mem_bondsAt hbm).1
      obtain ⟨t, ⟨ns, h1, h2⟩, h3⟩ := bondsOf_pos (List.mem_filter.mp hbm).1
      rw [hi] at h1 h3
      by_contra hne
      rw [h3] at hne
      exact hgrow (hr p ns t b.j h1 h2 (Ne.symm hne))
    rw [(e2 b hbm).1, (e2 b hbm).2, ← freshPhi_congr B D order hd p hbm]
    have hc := (hs p hlt).2 b hbm
    refine ⟨?_, hc.2⟩
    rw [hc.1]
    unfold influenceOf
    rw [hd b hbm]

theorem sound_step {B : Body} {D : Decompose} {order : Nat} {U : Update} {dt : ℝ} {H : Harm} {u y v : Nat → V3}
    {g : Ghosts} {s : State} {nbs : List (List Nat)} {r : Result} {d : Nat → ℝ} (hr : Reported nbs d H)
    (hs : Sound B D order d nbs s.weights)
    (h : evaluation B D order U dt H u y v g s nbs.length (encode nbs) = .ok r) :
    Sound B D order H.bondDamage nbs r.pre.weights := sound_pre hr hs (evaluation_parts h).1

theorem sound_start {B : Body} {D : Decompose} {order : Nat} {ghost : Nat → ℝ} {nbs : List (List Nat)} {s : State}
    (h : initialState B D order ghost nbs.length (encode nbs) = .ok s) :
    Sound B D order (fun _ => 0) nbs s.weights := by
  unfold initialState at h
  rw [visited_encode, Outcome.ok_bind] at h
  obtain ⟨w, h1, h2⟩ := Outcome.bind_eq_ok.mp h
  split at h2
  · cases h2
  · cases h2
    obtain ⟨-, hf⟩ := gradientWeights_fold h1
    obtain ⟨-, hp⟩ := weights_fold B D order _ (bondsOf_nodup nbs) _ hf
    intro p hlt
    exact ((hp p).1 (List.mem_range.mpr hlt) (by norm_num)).2

theorem sound_run {B : Body} {D : Decompose} {order : Nat} {U : Update} {ghost : Nat → ℝ} {nbs : List (List Nat)}
    {d : Nat → ℝ} {s : State} (h : Run B D order U ghost nbs (Reported nbs) d s) :
    Sound B D order d nbs s.weights := by
  induction h with
  | start h => exact sound_start h
  | step _ hr h ih => exact sound_step hr ih h
  | again _ hr h ih => exact sound_step hr ih h

end Verif.Assoc
