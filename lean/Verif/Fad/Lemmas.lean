import Verif.Fad.Spec
import Verif.Lps.TangentProps
import Verif.Tangent.FdProps
import Mathlib.Analysis.SpecialFunctions.Sqrt

/-! Lemmas on automatic differentiation. -/

noncomputable section

namespace Verif.Fad

open Verif Verif.Neigh Verif.Mech Verif.Tangent Verif.Energy Verif.Lps
open scoped Classical Topology

/-- The number `a` holds the value of `φ` at zero and its derivative in place `c`. -/
def Tracks (c : Nat) (φ : ℝ → ℝ) (a : Num) : Prop := φ 0 = a.val ∧ HasDerivAt φ (a.dx c) 0

section rules

variable {c : Nat} {φ ψ : ℝ → ℝ} {a b : Num}

theorem Tracks.const (x : ℝ) : Tracks c (fun _ => x) (Num.const x) := ⟨rfl, hasDerivAt_const _ _⟩

theorem Tracks.add (ha : Tracks c φ a) (hb : Tracks c ψ b) : Tracks c (fun s => φ s + ψ s) (a + b) := by
  refine ⟨?_, ha.2.add hb.2⟩
  show φ 0 + ψ 0 = a.val + b.val
  rw [ha.1, hb.1]

theorem Tracks.sub (ha : Tracks c φ a) (hb : Tracks c ψ b) : Tracks c (fun s => φ s - ψ s) (a - b) := by
  refine ⟨?_, ha.2.sub hb.2⟩
  show φ 0 - ψ 0 = a.val - b.val
  rw [ha.1, hb.1]

theorem Tracks.mul (ha : Tracks c φ a) (hb : Tracks c ψ b) : Tracks c (fun s => φ s * ψ s) (a * b) := by
  refine ⟨?_, ?_⟩
  · show φ 0 * ψ 0 = a.val * b.val
    rw [ha.1, hb.1]
  · have := ha.2.mul hb.2
    rw [ha.1, hb.1] at this
    exact this

theorem Tracks.scale (x : ℝ) (ha : Tracks c φ a) : Tracks c (fun s => x * φ s) (a.scale x) := by
  refine ⟨?_, ha.2.const_mul x⟩
  show x * φ 0 = x * a.val
  rw [ha.1]

theorem Tracks.minus (ha : Tracks c φ a) (x : ℝ) : Tracks c (fun s => φ s - x) (a.minus x) := by
  refine ⟨?_, ha.2.sub_const x⟩
  show φ 0 - x = a.val - x
  rw [ha.1]

theorem div_some {q : Num} (h : a.div b = some q) : b.val ≠ 0 ∧ q = ⟨a.val / b.val, fun k => (a.dx k * b.val - a.val * b.dx k) /
    (b.val * b.val)⟩ := by
  unfold Num.div at h
  split at h
  · cases h
  · next h0 => exact ⟨h0, (Option.some.inj h).symm⟩

theorem Tracks.div {q : Num} (ha : Tracks c φ a) (hb : Tracks c ψ b) (h : a.div b = some q) :
    Tracks c (fun s => φ s / ψ s) q := by
  obtain ⟨h0, rfl⟩ := div_some h
  refine ⟨?_, ?_⟩
  · show φ 0 / ψ 0 = a.val / b.val
    rw [ha.1, hb.1]
  · have := ha.2.div hb.2 (by rw [hb.1]; exact h0)
    rw [ha.1, hb.1] at this
    refine this.congr_deriv ?_
    rw [sq]

theorem sqrt_some {q : Num} (h : a.sqrt = some q) : a.val ≠ 0 ∧ q = ⟨Real.sqrt a.val, fun k => a.dx k / (2 * Real.sqrt a.val)⟩ := by
  unfold Num.sqrt at h
  split at h
  · cases h
  · next h0 => exact ⟨h0, (Option.some.inj h).symm⟩

theorem Tracks.sqrt {q : Num} (ha : Tracks c φ a) (h : a.sqrt = some q) :
    Tracks c (fun s => Real.sqrt (φ s)) q := by
  obtain ⟨h0, rfl⟩ := sqrt_some h
  refine ⟨?_, ?_⟩
  · show Real.sqrt (φ 0) = Real.sqrt a.val
    rw [ha.1]
  · have := ha.2.sqrt (by rw [ha.1]; exact h0)
    rw [ha.1] at this
    exact this

theorem Tracks.of_eq (ha : Tracks c φ a) (h : ∀ s, ψ s = φ s) : Tracks c ψ a := by
  have : ψ = φ := funext h
  rw [this]
  exact ha

end rules

/-! ### The neighborhood of a point -/

theorem tempList_eq (n : Nat) : tempList n = encode [(List.range n).map (· + 1)] := by
  simp [tempList, encode]

theorem visited_temp (n : Nat) : visitedBonds 1 (tempList n) = .ok (bondsOf [(List.range n).map (· + 1)]) := by
  rw [tempList_eq]
  exact visited_encode _

/-- The neighbors of the point of a neighborhood, by position. -/
abbrev hoodNbs (n : Nat) : List (List Nat) := [(List.range n).map (· + 1)]

theorem hood_bond {n : Nat} {b : Bond} (h : b ∈ bondsOf (hoodNbs n)) : b.i = 0 ∧ 0 < b.j ∧ b.j ≤ n := by
  obtain ⟨ns, h1, h2⟩ := mem_bondsOf h
  have hi : b.i = 0 := by
    have := (List.getElem?_eq_some_iff.1 h1).1
    simpa using this
  rw [hi] at h1
  cases h1
  obtain ⟨k, hk, e⟩ := List.mem_map.1 h2
  have := List.mem_range.1 hk
  exact ⟨hi, by omega, by omega⟩

theorem filter_hood (n : Nat) : (bondsOf (hoodNbs n)).filter (fun b => b.i = 0) = bondsOf (hoodNbs n) := by
  rw [List.filter_eq_self]
  intro b hb
  simp [(hood_bond hb).1]

section track

variable {C0 : Config} {Y : Nat → Num3} {Cs : ℝ → Config} {c : Nat}

/-- Nothing but the positions varies, and those are tracked. -/
structure Varies (c : Nat) (C0 : Config) (Y : Nat → Num3) (Cs : ℝ → Config) : Prop where
  zeta : ∀ s b, (Cs s).zeta b = C0.zeta b
  om : ∀ s b, (Cs s).om b = C0.om b
  m : ∀ s p, (Cs s).m p = C0.m p
  v : ∀ s p, (Cs s).v p = C0.v p
  damage : ∀ s p, (Cs s).damage p = C0.damage p
  thermal : ∀ s, (Cs s).thermal = C0.thermal
  y : ∀ i k, Tracks c (fun s => (Cs s).y i k) (Y i k)

theorem bondVector_tracks (H : Varies c C0 Y Cs) (b : Bond) (k : Fin 3) :
    Tracks c (fun s => (Cs s).yd b k) (bondVector Y b k) := (H.y b.j k).sub (H.y b.i k)

theorem bondLength_tracks (H : Varies c C0 Y Cs) {b : Bond} {q : Num} (h : bondLength Y b = some q) :
    Tracks c (fun s => (Cs s).dY b) q := by
  have hv := bondVector_tracks H b
  exact ((((hv 0).mul (hv 0)).add ((hv 1).mul (hv 1))).add ((hv 2).mul (hv 2))).sqrt h

theorem extension_tracks (H : Varies c C0 Y Cs) {b : Bond} {q : Num} (h : bondLength Y b = some q) :
    Tracks c (fun s => (Cs s).ext b) (extension C0 b q) := by
  have hl := bondLength_tracks H h
  unfold Config.ext extension
  simp only [H.thermal, H.zeta]
  cases C0.thermal with
  | none => exact hl.minus _
  | some t => exact (hl.minus _).minus _

theorem dilatation_tracks (H : Varies c C0 Y Cs) : ∀ {bs : List Bond} {th q : Num} {φ : ℝ → ℝ}, Tracks c φ th →
    dilatation C0 Y bs th = some q → (∀ b ∈ bs, C0.m b.i ≠ 0 ∧ ∃ l, bondLength Y b = some l) ∧
    Tracks c (fun s => φ s + (bs.map fun b => 3 * kap (Cs s) b * (Cs s).zeta b * (Cs s).ext b / (Cs s).m b.i).sum) q
  | [], th, q, φ, ht, h => by
    cases h
    exact ⟨by simp, ht.of_eq fun s => by simp⟩
  | b :: bs, th, q, φ, ht, h => by
    rw [dilatation] at h
    obtain ⟨l, hl, h⟩ := Option.bind_eq_some_iff.1 h
    simp only at h
    split at h
    · cases h
    · next hm =>
      have he := extension_tracks H hl
      obtain ⟨h1, h2⟩ := dilatation_tracks H (ht.add (((he.scale _).scale _).scale _)) h
      refine ⟨?_, h2.of_eq fun s => ?_⟩
      · intro b' hb'
        rcases List.mem_cons.1 hb' with rfl | hb'
        · exact ⟨hm, l, hl⟩
        · exact h1 b' hb'
      · rw [List.map_cons, List.sum_cons]
        unfold kap
        simp only [H.zeta, H.om, H.m, H.v, H.damage]
        ring

theorem bondForce_tracks (H : Varies c C0 Y Cs) {K mu : ℝ} {th : Num} {theta : ℝ → Nat → ℝ} {b : Bond} {f : Num3}
    (ht : Tracks c (fun s => theta s b.i) th) (h : bondForce C0 K mu Y th b = some f) (k : Fin 3) :
    Tracks c (fun s => ((tension (Cs s) K mu (theta s) b / (Cs s).dY b) • (Cs s).yd b) k) (f k) := by
  unfold bondForce at h
  obtain ⟨l, hl, h⟩ := Option.bind_eq_some_iff.1 h
  simp only at h
  split at h
  · cases h
  · obtain ⟨fx, h0, h⟩ := Option.bind_eq_some_iff.1 h
    obtain ⟨fy, h1, h⟩ := Option.bind_eq_some_iff.1 h
    obtain ⟨fz, h2, h⟩ := Option.bind_eq_some_iff.1 h
    have e := Option.some.inj h
    have hL := bondLength_tracks H hl
    have he := extension_tracks H hl
    have hv := bondVector_tracks H b
    have hT := (((((ht.scale (C0.om b)).scale (3 * K / C0.m b.i - 15 * mu / C0.m b.i / 3)).scale (C0.zeta b)).add
      (he.scale ((1 - C0.damage b.b) * C0.om b * (15 * mu / C0.m b.i)))).scale (1 - C0.damage b.b))
    have key : ∀ (k : Fin 3) (q : Num), Tracks c (fun s => (tension (Cs s) K mu (theta s) b * (Cs s).yd b k) / (Cs s).dY b) q →
        Tracks c (fun s => ((tension (Cs s) K mu (theta s) b / (Cs s).dY b) • (Cs s).yd b) k) q := by
      intro k q hq
      refine hq.of_eq fun s => ?_
      rw [Pi.smul_apply, smul_eq_mul]
      ring
    have hten : ∀ s, tension (Cs s) K mu (theta s) b = (1 - C0.damage b.b) * (C0.zeta b *
        ((3 * K / C0.m b.i - 15 * mu / C0.m b.i / 3) * (C0.om b * theta s b.i)) +
        (1 - C0.damage b.b) * C0.om b * (15 * mu / C0.m b.i) * (Cs s).ext b) := by
      intro s
      unfold tension
      rw [H.zeta, H.om, H.m, H.damage]
      ring
    subst e
    fin_cases k
    · refine key 0 _ ?_
      exact ((hT.of_eq hten).mul (hv 0)).div hL h0
    · refine key 1 _ ?_
      exact ((hT.of_eq hten).mul (hv 1)).div hL h1
    · refine key 2 _ ?_
      exact ((hT.of_eq hten).mul (hv 2)).div hL h2

theorem addForce_tracks (H : Varies c C0 Y Cs) {b : Bond} {f : Num3} {g : ℝ → V3} {F : Nat → Num3} {G : ℝ → Nat → V3}
    (hf : ∀ k, Tracks c (fun s => g s k) (f k)) (hF : ∀ p k, Tracks c (fun s => G s p k) (F p k)) (p : Nat) (k : Fin 3) :
    Tracks c (fun s => (G s p + pull (selfVol (Cs s)) (nbrVol (Cs s)) p (b, g s)) k) (addForce C0 F b f p k) := by
  have e : ∀ s, (G s p + pull (selfVol (Cs s)) (nbrVol (Cs s)) p (b, g s)) k =
      scatterStep (selfVol C0) (nbrVol C0) (G s) b (g s) p k := by
    intro s
    rw [scatterStep_apply]
    unfold pull selfVol nbrVol
    rw [H.v, H.v]
  refine Tracks.of_eq ?_ e
  have h1 : ∀ p k, Tracks c (fun s => (Function.update (G s) b.i fun c => G s b.i c + g s c * nbrVol C0 b) p k)
      (Function.update F b.i (fun c => F b.i c + (f c).scale (C0.v b.j)) p k) := by
    intro p k
    by_cases hp : p = b.i
    · subst hp
      simp only [Function.update_self]
      refine ((hF b.i k).add ((hf k).scale (C0.v b.j))).of_eq fun s => ?_
      unfold nbrVol
      ring
    · simp only [Function.update_of_ne hp]
      exact hF p k
  unfold scatterStep addForce
  by_cases hp : p = b.j
  · subst hp
    simp only [Function.update_self]
    refine ((h1 b.j k).sub ((hf k).scale (C0.v b.i))).of_eq fun s => ?_
    unfold selfVol
    ring
  · simp only [Function.update_of_ne hp]
    exact h1 p k

theorem forces_tracks (H : Varies c C0 Y Cs) {K mu : ℝ} {th : Num} {theta : ℝ → Nat → ℝ} :
    ∀ {bs : List Bond} {F R : Nat → Num3} {G : ℝ → Nat → V3}, (∀ b ∈ bs, Tracks c (fun s => theta s b.i) th) →
    (∀ p k, Tracks c (fun s => G s p k) (F p k)) → forces C0 K mu Y th bs F = some R → ∀ p k,
    Tracks c (fun s => (G s p + (bs.map fun b => pull (selfVol (Cs s)) (nbrVol (Cs s)) p
      (b, (tension (Cs s) K mu (theta s) b / (Cs s).dY b) • (Cs s).yd b)).sum) k) (R p k)
  | [], F, R, G, _, hF, h, p, k => by
    cases h
    exact (hF p k).of_eq fun s => by simp
  | b :: bs, F, R, G, ht, hF, h, p, k => by
    rw [forces] at h
    obtain ⟨f, hf, h⟩ := Option.bind_eq_some_iff.1 h
    have := forces_tracks H (G := fun s p => G s p + pull (selfVol (Cs s)) (nbrVol (Cs s)) p
      (b, (tension (Cs s) K mu (theta s) b / (Cs s).dY b) • (Cs s).yd b))
      (fun b hb => ht b (List.mem_cons_of_mem _ hb))
      (addForce_tracks H (bondForce_tracks H (ht b List.mem_cons_self) hf) hF) h p k
    refine this.of_eq fun s => ?_
    rw [List.map_cons, List.sum_cons, add_assoc]

end track

/-! ### The elastic material -/

theorem var_tracks (y : Nat → ℝ) (c : Nat) (i : Nat) (k : Fin 3) :
    Tracks c (fun s => comp (bump y c s) i k) (independent y i k) := by
  unfold comp bump independent Num.var
  by_cases h : 3 * i + (k : Nat) = c
  · subst h
    simp only [Function.update_self]
    refine ⟨by simp, ?_⟩
    simpa using (hasDerivAt_id (0 : ℝ)).const_add (y (3 * i + k))
  · simp only [Function.update_of_ne h]
    refine ⟨rfl, ?_⟩
    simp only [if_neg (Ne.symm h)]
    exact hasDerivAt_const _ _

theorem hood_varies (S : Solid) (gids : List Nat) (y : Nat → ℝ) (c : Nat) :
    Varies c (S.hood gids y) (independent y) fun s => S.hood gids (bump y c s) where
  zeta _ _ := rfl
  om _ _ := rfl
  m _ _ := rfl
  v _ _ := rfl
  damage _ _ := rfl
  thermal _ := rfl
  y i k := var_tracks y c i k

/-- The force density in the neighborhood of a point, in closed form. -/
def hoodValue (S : Solid) (gids : List Nat) (y : Nat → ℝ) (k : Nat) : ℝ :=
  ((bondsOf (hoodNbs (gids.length - 1))).map fun b => pull (selfVol (S.hood gids y)) (nbrVol (S.hood gids y)) (k / 3)
    (b, (tension (S.hood gids y) S.K S.mu (theta' (S.hood gids y) (hoodNbs (gids.length - 1))) b / (S.hood gids y).dY b) •
      (S.hood gids y).yd b)).sum ⟨k % 3, Nat.mod_lt _ (by omega)⟩

theorem elasticKernel_eq {S : Solid} {gids : List Nat} {y v : Nat → ℝ} {f : Nat → ℝ} (h : elasticKernel S gids y v = .ok f) :
    f = hoodValue S gids y := by
  unfold elasticKernel at h
  obtain ⟨r, h1, h⟩ := Outcome.bind_eq_ok.1 h
  rw [tempList_eq] at h1
  rw [← Outcome.ok.inj h]
  funext k
  obtain ⟨th, F⟩ := r
  have := (elastic_at (nbs := hoodNbs (gids.length - 1)) h1).2 (k / 3)
  show F (k / 3) _ = _
  rw [this]
  rfl

theorem elasticKernel_ok {S : Solid} {gids : List Nat} {y : Nat → ℝ} (v : Nat → ℝ)
    (h : ∀ b ∈ bondsOf (hoodNbs (gids.length - 1)), (S.hood gids y).m b.i ≠ 0 ∧ (S.hood gids y).dY b ≠ 0) :
    elasticKernel S gids y v = .ok (hoodValue S gids y) := by
  have hex : ∃ r, elasticMaterial (S.hood gids y) S.K S.mu 1 (tempList (gids.length - 1)) (fun _ => 0) = .ok r := by
    unfold elasticMaterial Mech.dilatation
    rw [visited_temp]
    obtain ⟨theta, ht⟩ := dilatationLoop_ok (C := S.hood gids y) (fun b hb => (h b hb).1) (fun p => if p < 1 then 0 else 0)
    simp only
    rw [ht]
    unfold elasticForce kernel
    rw [visited_temp]
    obtain ⟨F, hF⟩ := scatter_ok (vi := selfVol (S.hood gids y)) (vj := nbrVol (S.hood gids y))
      (f := elasticBond (S.hood gids y) S.K S.mu theta) (bs := bondsOf (hoodNbs (gids.length - 1))) 0 (by
        intro b hb
        obtain ⟨h1, h2⟩ := h b hb
        unfold elasticBond Mech.along
        rw [if_neg h1, if_neg h2]
        exact ⟨_, rfl⟩)
    simp only
    rw [hF]
    exact ⟨_, rfl⟩
  obtain ⟨r, hr⟩ := hex
  have hk : elasticKernel S gids y v = .ok fun k => r.2 (k / 3) ⟨k % 3, Nat.mod_lt _ (by omega)⟩ := by
    unfold elasticKernel
    rw [hr, Outcome.ok_bind]
  rw [hk, ← elasticKernel_eq hk]

theorem elasticAd_parts {S : Solid} {gids : List Nat} {y : Nat → ℝ} {f : Nat → Num} (h : elasticAd S gids y = some f) (c : Nat) :
    (∀ b ∈ bondsOf (hoodNbs (gids.length - 1)), (S.hood gids y).m b.i ≠ 0 ∧ ∃ l, bondLength (independent y) b = some l) ∧
    ∀ k, Tracks c (fun s => hoodValue S gids (bump y c s) k) (f k) := by
  unfold elasticAd at h
  rw [visited_temp] at h
  simp only at h
  obtain ⟨th, h1, h⟩ := Option.bind_eq_some_iff.1 h
  obtain ⟨F, h2, h⟩ := Option.bind_eq_some_iff.1 h
  have H := hood_varies S gids y c
  obtain ⟨hb, ht⟩ := dilatation_tracks H (Tracks.const 0) h1
  refine ⟨hb, fun k => ?_⟩
  have hth : ∀ b ∈ bondsOf (hoodNbs (gids.length - 1)),
      Tracks c (fun s => theta' (S.hood gids (bump y c s)) (hoodNbs (gids.length - 1)) b.i) th := by
    intro b hb
    rw [(hood_bond hb).1]
    refine ht.of_eq fun s => ?_
    unfold theta' bondsAt
    rw [filter_hood, zero_add]
    congr 1
    apply List.map_congr_left
    intro b' hb'
    rw [(hood_bond hb').1]
  have := forces_tracks H (theta := fun s => theta' (S.hood gids (bump y c s)) (hoodNbs (gids.length - 1))) (G := fun _ _ => 0)
    hth (fun p k => Tracks.const 0) h2 (k / 3) ⟨k % 3, Nat.mod_lt _ (by omega)⟩
  rw [← Option.some.inj h]
  refine this.of_eq fun s => ?_
  rw [zero_add]
  rfl

theorem dilatation_some {C : Config} {Y : Nat → Num3} : ∀ {bs : List Bond} (th : Num),
    (∀ b ∈ bs, C.m b.i ≠ 0 ∧ ∃ l, bondLength Y b = some l) → ∃ q, dilatation C Y bs th = some q
  | [], th, _ => ⟨th, rfl⟩
  | b :: bs, th, h => by
    obtain ⟨hm, l, hl⟩ := h b List.mem_cons_self
    rw [dilatation, hl, Option.bind_eq_bind, Option.bind_some, if_neg hm]
    exact dilatation_some _ fun b hb => h b (List.mem_cons_of_mem _ hb)

theorem forces_some {C : Config} {K mu : ℝ} {Y : Nat → Num3} {th : Num} : ∀ {bs : List Bond} (F : Nat → Num3),
    (∀ b ∈ bs, C.m b.i ≠ 0 ∧ ∃ l, bondLength Y b = some l ∧ l.val ≠ 0) → ∃ R, forces C K mu Y th bs F = some R
  | [], F, _ => ⟨F, rfl⟩
  | b :: bs, F, h => by
    obtain ⟨hm, l, hl, h0⟩ := h b List.mem_cons_self
    have hd : ∀ a : Num, ∃ q, a.div l = some q := fun a => ⟨_, if_neg h0⟩
    have hf : ∃ f, bondForce C K mu Y th b = some f := by
      unfold bondForce
      simp only [hl, Option.bind_eq_bind, Option.bind_some]
      rw [if_neg hm]
      obtain ⟨x, hx⟩ := hd (((th.scale (C.om b)).scale (3 * K / C.m b.i - 15 * mu / C.m b.i / 3)).scale (C.zeta b) +
        (extension C b l).scale ((1 - C.damage b.b) * C.om b * (15 * mu / C.m b.i)) |>.scale (1 - C.damage b.b) |> (· * bondVector Y b 0))
      obtain ⟨y, hy⟩ := hd (((th.scale (C.om b)).scale (3 * K / C.m b.i - 15 * mu / C.m b.i / 3)).scale (C.zeta b) +
        (extension C b l).scale ((1 - C.damage b.b) * C.om b * (15 * mu / C.m b.i)) |>.scale (1 - C.damage b.b) |> (· * bondVector Y b 1))
      obtain ⟨z, hz⟩ := hd (((th.scale (C.om b)).scale (3 * K / C.m b.i - 15 * mu / C.m b.i / 3)).scale (C.zeta b) +
        (extension C b l).scale ((1 - C.damage b.b) * C.om b * (15 * mu / C.m b.i)) |>.scale (1 - C.damage b.b) |> (· * bondVector Y b 2))
      rw [hx, Option.bind_some, hy, Option.bind_some, hz, Option.bind_some]
      exact ⟨_, rfl⟩
    obtain ⟨f, hf⟩ := hf
    rw [forces, hf, Option.bind_eq_bind, Option.bind_some]
    exact forces_some _ fun b hb => h b (List.mem_cons_of_mem _ hb)

theorem bondLength_val {S : Solid} {gids : List Nat} {y : Nat → ℝ} {b : Bond} {l : Num}
    (h : bondLength (independent y) b = some l) : l.val = (S.hood gids y).dY b ∧ (S.hood gids y).dY b ≠ 0 := by
  obtain ⟨h0, rfl⟩ := sqrt_some h
  refine ⟨rfl, ?_⟩
  intro h1
  have h2 : len ((S.hood gids y).yd b) = 0 := h1
  rw [len_eq_zero] at h2
  apply h0
  show (S.hood gids y).yd b 0 * (S.hood gids y).yd b 0 + (S.hood gids y).yd b 1 * (S.hood gids y).yd b 1 +
    (S.hood gids y).yd b 2 * (S.hood gids y).yd b 2 = 0
  rw [h2]
  simp

theorem bondLength_some {S : Solid} {gids : List Nat} {y : Nat → ℝ} {b : Bond} (h : (S.hood gids y).dY b ≠ 0) :
    ∃ l, bondLength (independent y) b = some l := by
  refine ⟨_, if_neg fun h0 => h ?_⟩
  have : (S.hood gids y).dY b = Real.sqrt ((S.hood gids y).yd b 0 * (S.hood gids y).yd b 0 +
    (S.hood gids y).yd b 1 * (S.hood gids y).yd b 1 + (S.hood gids y).yd b 2 * (S.hood gids y).yd b 2) := rfl
  rw [this]
  have h0' : (S.hood gids y).yd b 0 * (S.hood gids y).yd b 0 +
    (S.hood gids y).yd b 1 * (S.hood gids y).yd b 1 + (S.hood gids y).yd b 2 * (S.hood gids y).yd b 2 = 0 := h0
  rw [h0', Real.sqrt_zero]

theorem elasticAd_some {S : Solid} {gids : List Nat} {y : Nat → ℝ}
    (h : ∀ b ∈ bondsOf (hoodNbs (gids.length - 1)), (S.hood gids y).m b.i ≠ 0 ∧ (S.hood gids y).dY b ≠ 0) :
    ∃ f, elasticAd S gids y = some f := by
  have hb : ∀ b ∈ bondsOf (hoodNbs (gids.length - 1)), (S.hood gids y).m b.i ≠ 0 ∧
      ∃ l, bondLength (independent y) b = some l ∧ l.val ≠ 0 := by
    intro b hb
    obtain ⟨h1, h2⟩ := h b hb
    obtain ⟨l, hl⟩ := bondLength_some h2
    exact ⟨h1, l, hl, by rw [(bondLength_val (S := S) (gids := gids) hl).1]; exact h2⟩
  unfold elasticAd
  rw [visited_temp]
  simp only
  obtain ⟨th, ht⟩ := dilatation_some (C := S.hood gids y) (Y := independent y) (Num.const 0)
    (fun b hb' => ⟨(hb b hb').1, by obtain ⟨l, hl, _⟩ := (hb b hb').2; exact ⟨l, hl⟩⟩)
  rw [ht, Option.bind_eq_bind, Option.bind_some]
  obtain ⟨F, hF⟩ := forces_some (K := S.K) (mu := S.mu) (th := th) (fun _ _ => Num.const 0) hb
  rw [hF, Option.bind_eq_bind, Option.bind_some]
  exact ⟨_, rfl⟩

theorem elasticAd_iff {S : Solid} {gids : List Nat} {y : Nat → ℝ} : (∃ f, elasticAd S gids y = some f) ↔
    ∀ b ∈ bondsOf (hoodNbs (gids.length - 1)), (S.hood gids y).m b.i ≠ 0 ∧ (S.hood gids y).dY b ≠ 0 := by
  constructor
  · rintro ⟨f, hf⟩ b hb
    obtain ⟨h1, l, hl⟩ := (elasticAd_parts hf 0).1 b hb
    exact ⟨h1, (bondLength_val hl).2⟩
  · exact elasticAd_some

/-! ### Assembly -/

theorem entries_ok {S : Scratch} {n : Nat} {g : Nat → Nat → ℝ} (h : ∀ r < n, ∀ c < n, S.val r c = some (g r c)) :
    ∃ L, entries S n = .ok L ∧ ∀ r < n, ∀ c < n, L r c = g r c := by
  refine ⟨_, if_pos fun r hr c hc => by rw [h r hr c hc]; rfl, fun r hr c hc => ?_⟩
  rw [h r hr c hc]
  rfl

/-- Near the present position of one coordinate the forces exist, and their derivative is the one computed. -/
theorem elastic_lifts {S : Solid} {gids : List Nat} {y : Nat → ℝ} {f : Nat → Num} (h : elasticAd S gids y = some f) (c : Nat)
    (v : Nat → ℝ) : (∀ᶠ s in 𝓝 (0 : ℝ), elasticKernel S gids (bump y c s) v = .ok (hoodValue S gids (bump y c s))) ∧
    ∀ k, HasDerivAt (fun s => hoodValue S gids (bump y c s) k) ((f k).dx c) 0 := by
  obtain ⟨hb, ht⟩ := elasticAd_parts h c
  refine ⟨?_, fun k => (ht k).2⟩
  have hev : ∀ᶠ s in 𝓝 (0 : ℝ), ∀ b ∈ bondsOf (hoodNbs (gids.length - 1)), (S.hood gids (bump y c s)).dY b ≠ 0 := by
    generalize bondsOf (hoodNbs (gids.length - 1)) = l at hb
    induction l with
    | nil => simp
    | cons b l ih =>
      obtain ⟨_, q, hq⟩ := hb b List.mem_cons_self
      have hT := bondLength_tracks (hood_varies S gids y c) hq
      have hc := hT.2.continuousAt.eventually_ne (y := 0) (by
        have := (bondLength_val (S := S) (gids := gids) hq)
        have e : (S.hood gids (bump y c 0)).dY b = q.val := hT.1
        rw [e, this.1]
        exact this.2)
      filter_upwards [hc, ih fun b hb' => hb b (List.mem_cons_of_mem _ hb')] with s h1 h2 b' hb'
      rcases List.mem_cons.1 hb' with rfl | hb'
      · exact h1
      · exact h2 b' hb'
  filter_upwards [hev] with s hs
  exact elasticKernel_ok v fun b hb' => ⟨(hb b hb').1, hs b hb'⟩

end Verif.Fad
