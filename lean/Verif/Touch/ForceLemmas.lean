import Verif.Touch.StateLemmas
import Verif.Contact.Props
import Verif.Assembly.Props

/-! The forces computed from a state in closed form. -/

noncomputable section

namespace Verif.Touch

open Verif Verif.Mech Verif.Neigh Verif.Contact
open scoped Classical

theorem sum_flatMap {A V : Type} [AddCommMonoid V] (l : List A) (f : A → List V) :
    (l.flatMap f).sum = (l.map fun a => (f a).sum).sum := by
  induction l with
  | nil => rfl
  | cons a l ih => rw [List.flatMap_cons, List.sum_append, ih, List.map_cons, List.sum_cons]

theorem entry_idxOf {V : Type} [Zero V] (ov : List Nat) (φ : Nat → V) {g : Nat} (hg : g ∈ ov) :
    entry (ov.map fun g => (g, φ g)) (ov.idxOf g) = φ g := by
  unfold entry
  rw [List.getElem?_map, List.getElem?_idxOf hg]
  rfl

/-- What the pairs of some points contribute to the force density of a point. -/
def partial_ (P : Params) (F : Fields) (cn : Nat → List Nat) (own : List Nat) (g : Nat) : V3 :=
  (own.map fun i => ((cn i).map fun j => pairTerm P F g i j).sum).sum

theorem law_congr (P : Params) (F F' : Fields) (i j i' j' : Nat) (h1 : F.y i = F'.y i') (h2 : F.y j = F'.y j')
    (h3 : F.v i = F'.v i') (h4 : F.v j = F'.v j') : law P F i j = law P F' i' j' := by
  unfold law
  rw [h1, h2, h3, h4]

theorem pairs_idx (f : Nat → Nat) (cn : Nat → List Nat) (own : List Nat) :
    pairs (own.map f) (own.map fun g => (cn g).map f) = own.flatMap fun i => (cn i).map fun j => (f i, f j) := by
  unfold pairs
  induction own with
  | nil => rfl
  | cons i own ih =>
    rw [List.map_cons, List.map_cons, List.zip_cons_cons, List.flatMap_cons, ih, List.flatMap_cons]
    simp

theorem localForce_eq {W : World} (hW : W.Valid) {cn : Nat → List Nat} {y v : Nat → V3} {b : Nat} {bonds : BlockMap}
    {owned : List Nat} (hn : owned.Nodup) {P : Params} (hR : 0 ≤ P.radius) {f : Assembly.Part V3}
    (h : localForce P (localOf W cn W.vol y v b bonds owned) = .ok f) :
    f = (overlapIn W cn owned b).map fun g => (g, partial_ P ⟨y, v, W.vol⟩ cn (ownIn W owned b) g) := by
  rw [localForce, Outcome.bind_eq_ok] at h
  obtain ⟨F, h1, h2⟩ := h
  cases h2
  simp only [localOf, dataIn, ← listOf_encode] at h1 ⊢
  set own := ownIn W owned b with hown
  set ov := overlapIn W cn owned b with hov
  have hin : ∀ i ∈ own, i ∈ ov := fun i hi => List.mem_append_left _ hi
  have hcn : ∀ i ∈ own, ∀ j ∈ cn i, j ∈ ov := fun i hi j hj => mem_overlapIn hi hj
  have hnd : ov.Nodup := overlapIn_nodup hn cn b
  have hl := C29_law P _ (own.map ov.idxOf) (own.map fun g => (cn g).map ov.idxOf) F hR (by simp) (by
    rw [pairs_idx]
    intro x hx
    simp only [List.mem_flatMap, List.mem_map] at hx
    obtain ⟨i, hi, j, hj, rfl⟩ := hx
    simp only
    rw [entry_idxOf _ _ (hin i hi), entry_idxOf _ _ (hcn i hi j hj)]
    exact ⟨hW.vol _, hW.vol _⟩) h1
  have e : ov.zipIdx.map (fun x => (x.1, F x.2)) = ov.map fun g => (g, F (ov.idxOf g)) := by
    apply List.ext_getElem
    · simp
    · intro k hk1 hk2
      simp only [List.getElem_map, List.getElem_zipIdx, zero_add]
      rw [hnd.idxOf_getElem]
  rw [e]
  apply List.map_congr_left
  intro g hg
  congr 1
  rw [hl, pairs_idx]
  unfold partial_
  rw [List.map_flatMap, sum_flatMap]
  apply congrArg
  apply List.map_congr_left
  intro i hi
  rw [List.map_map]
  apply congrArg
  apply List.map_congr_left
  intro j hj
  simp only [Function.comp_apply, pairTerm]
  rw [entry_idxOf _ _ (hin i hi), entry_idxOf _ _ (hcn i hi j hj),
    law_congr P _ ⟨y, v, W.vol⟩ (ov.idxOf i) (ov.idxOf j) i j (entry_idxOf _ _ (hin i hi))
      (entry_idxOf _ _ (hcn i hi j hj)) (entry_idxOf _ _ (hin i hi)) (entry_idxOf _ _ (hcn i hi j hj))]
  have e1 : (ov.idxOf i = ov.idxOf g) ↔ i = g := List.idxOf_inj (hin i hi)
  have e2 : (ov.idxOf j = ov.idxOf g) ↔ j = g := List.idxOf_inj (hcn i hi j hj)
  simp only [e1, e2]

theorem localForce_some {W : World} {cn : Nat → List Nat} {y v : Nat → V3} {b : Nat} {bonds : BlockMap}
    {owned : List Nat} {P : Params} (hh : P.horizon ≠ 0) (hd : ∀ i ∈ owned, ∀ j ∈ cn i, y j ≠ y i) :
    ∃ f, localForce P (localOf W cn W.vol y v b bonds owned) = .ok f := by
  have hin : ∀ i ∈ ownIn W owned b, i ∈ overlapIn W cn owned b := fun i hi => List.mem_append_left _ hi
  have hcn : ∀ i ∈ ownIn W owned b, ∀ j ∈ cn i, j ∈ overlapIn W cn owned b := fun i hi j hj => mem_overlapIn hi hj
  obtain ⟨f, hf⟩ := C29_defined P ⟨entry ((overlapIn W cn owned b).map fun g => (g, y g)),
      entry ((overlapIn W cn owned b).map fun g => (g, v g)),
      entry ((overlapIn W cn owned b).map fun g => (g, W.vol g))⟩
    ((ownIn W owned b).map (overlapIn W cn owned b).idxOf)
    ((ownIn W owned b).map fun g => (cn g).map (overlapIn W cn owned b).idxOf) hh (by simp) (by
      rw [pairs_idx]
      intro x hx
      simp only [List.mem_flatMap, List.mem_map] at hx
      obtain ⟨i, hi, j, hj, rfl⟩ := hx
      simp only
      rw [entry_idxOf _ _ (hin i hi), entry_idxOf _ _ (hcn i hi j hj)]
      exact hd i (List.mem_filter.1 hi).1 j hj)
  refine ⟨(overlapIn W cn owned b).zipIdx.map fun x => (x.1, f x.2), ?_⟩
  rw [localForce]
  simp only [localOf, dataIn, ← listOf_encode]
  rw [hf, Outcome.ok_bind]

theorem partial_zero (P : Params) (F : Fields) (cn : Nat → List Nat) (own : List Nat) (g : Nat) (h1 : g ∉ own)
    (h2 : ∀ i ∈ own, g ∉ cn i) : partial_ P F cn own g = 0 := by
  unfold partial_
  apply List.sum_eq_zero
  intro x hx
  obtain ⟨i, hi, rfl⟩ := List.mem_map.1 hx
  apply List.sum_eq_zero
  intro x hx
  obtain ⟨j, hj, rfl⟩ := List.mem_map.1 hx
  rw [pairTerm, if_neg (by rintro rfl; exact h1 hi), if_neg (by rintro rfl; exact h2 i hi hj), sub_zero]

theorem filter_part {V : Type} [AddCommMonoid V] (gs : List Nat) (hn : gs.Nodup) (φ : Nat → V) (g : Nat) (h : g ∉ gs → φ g = 0) :
    (((gs.map fun x => (x, φ x)).filter fun e => e.1 = g).map Prod.snd).sum = φ g := by
  rw [List.filter_map, List.map_map]
  have : (Prod.snd ∘ fun x => (x, φ x)) = φ := rfl
  rw [this]
  by_cases hg : g ∈ gs
  · have e : gs.filter ((fun e : Nat × V => decide (e.1 = g)) ∘ fun x => (x, φ x)) = [g] := by
      have : ((fun e : Nat × V => decide (e.1 = g)) ∘ fun x => (x, φ x)) = fun x => x == g := by
        funext x; simp [Function.comp, beq_eq_decide]
      rw [this, List.filter_beq, List.count_eq_one_of_mem hn hg]
      rfl
    rw [e]; simp
  · rw [h hg]
    have e : gs.filter ((fun e : Nat × V => decide (e.1 = g)) ∘ fun x => (x, φ x)) = [] := by
      rw [List.filter_eq_nil_iff]
      intro a ha
      simp only [Function.comp_apply, decide_eq_true_eq]
      rintro rfl
      exact hg ha
    rw [e]; rfl

/-- Summing block by block over the points of the block is summing over the points. -/
theorem sum_blocks {V : Type} [AddCommMonoid V] (β : Nat → Nat) (bs : List Nat) (hn : bs.Nodup) (own : List Nat)
    (hb : ∀ i ∈ own, β i ∈ bs) (T : Nat → Nat → V) :
    (bs.map fun b => ((own.filter fun g => β g = b).map (T b)).sum).sum = (own.map fun i => T (β i) i).sum := by
  induction own with
  | nil => simp
  | cons i own ih =>
    rw [List.map_cons, List.sum_cons, ← ih fun x hx => hb x (List.mem_cons_of_mem _ hx)]
    have h1 : ∀ b, (((i :: own).filter fun g => β g = b).map (T b)).sum =
        (if b = β i then T (β i) i else 0) + ((own.filter fun g => β g = b).map (T b)).sum := by
      intro b
      rw [List.filter_cons]
      by_cases h : β i = b
      · subst h; simp
      · simp [h, Ne.symm h]
    simp only [h1]
    rw [List.sum_map_add]
    congr 1
    have hm := hb i List.mem_cons_self
    clear ih h1 hb
    induction bs with
    | nil => cases hm
    | cons b bs ih =>
      rw [List.nodup_cons] at hn
      rw [List.map_cons, List.sum_cons]
      rcases List.mem_cons.1 hm with h | h
      · rw [if_pos h.symm, List.sum_eq_zero, add_zero]
        intro x hx
        obtain ⟨b', hb', rfl⟩ := List.mem_map.1 hx
        rw [if_neg]
        rintro rfl
        exact hn.1 (h ▸ hb')
      · rw [if_neg, zero_add, ih hn.2 h]
        rintro rfl
        exact hn.1 h

theorem owner_eq {W : World} (hW : W.Valid) {cn : Nat → List Nat} {parts : List Contact.Part} (h : GoodParts W cn parts)
    {p g : Nat} {c : Contact.Part} (hp : parts[p]? = some c) (hg : g ∈ c.owned) : owner parts g = p := by
  have hn : (parts.flatMap Contact.Part.owned).Nodup := h.owned.nodup_iff.2 hW.nodup
  clear h
  unfold owner
  induction parts generalizing p with
  | nil => cases hp
  | cons d parts ih =>
    rw [List.flatMap_cons, List.nodup_append] at hn
    rw [List.findIdx_cons]
    cases p with
    | zero =>
      rw [List.getElem?_cons_zero] at hp
      cases hp
      simp [hg]
    | succ p =>
      rw [List.getElem?_cons_succ] at hp
      have : g ∉ d.owned := by
        intro h1
        exact hn.2.2 g h1 g (List.mem_flatMap.2 ⟨c, List.mem_of_getElem? hp, hg⟩) rfl
      simp only [this, decide_false, cond_false]
      rw [ih hp hn.2.1]

theorem flatten_lookup {V : Type} {d : Assembly.Dist V} (hn : (d.flatten.map Prod.fst).Nodup) {p g : Nat} {x : V}
    (h : Assembly.lookup d p g = some x) : d.flatten.lookup g = some x := by
  unfold Assembly.lookup at h
  obtain ⟨part, h1, h2⟩ := Option.bind_eq_some_iff.1 h
  apply lookup_of_mem hn
  rw [List.mem_flatten]
  refine ⟨part, List.mem_of_getElem? h1, ?_⟩
  clear h1 h hn
  induction part with
  | nil => cases h2
  | cons e part ih =>
    rw [show e = (e.1, e.2) from rfl, List.lookup_cons] at h2
    by_cases hg : g = e.1
    · subst hg
      simp only [beq_self_eq_true] at h2
      cases h2
      exact List.mem_cons_self
    · rw [show (g == e.1) = false by simpa using hg] at h2
      exact List.mem_cons_of_mem _ (ih h2)

theorem update_map {V : Type} [Add V] (a b : Assembly.Dist V)
    (h : a.map (·.map Prod.fst) = b.map (·.map Prod.fst)) :
    (Assembly.update a b).map (·.map Prod.fst) = a.map (·.map Prod.fst) := by
  unfold Assembly.update
  induction a generalizing b with
  | nil => rfl
  | cons x a ih =>
    cases b with
    | nil => simp at h
    | cons z b =>
      simp only [List.map_cons, List.cons.injEq] at h
      rw [List.zipWith_cons_cons, List.map_cons, List.map_cons, ih b h.2]
      congr 1
      have h1 := h.1
      clear h ih
      induction x generalizing z with
      | nil => rfl
      | cons e x ih =>
        cases z with
        | nil => simp at h1
        | cons f z =>
          simp only [List.map_cons, List.cons.injEq] at h1
          rw [List.zipWith_cons_cons, List.map_cons, List.map_cons, ih z h1.2]

theorem exportAdd_map {V : Type} [Add V] (b : Assembly.BlockField V) (t : Assembly.Dist V) :
    (Assembly.exportAdd b t).map (·.map Prod.fst) = t.map (·.map Prod.fst) := by
  unfold Assembly.exportAdd
  cases b.data with
  | none => rfl
  | some d =>
    simp only
    generalize Assembly.sends d = l
    induction l generalizing t with
    | nil => rfl
    | cons s l ih =>
      rw [List.foldl_cons, ih]
      unfold Assembly.receiveAdd
      apply List.ext_getElem
      · simp
      · intro k h1 h2
        simp only [List.getElem_map, List.getElem_mapIdx]
        split
        · rw [List.map_map]
          apply List.map_congr_left
          intro e _
          simp only [Function.comp_apply]
          split <;> rfl
        · rfl

theorem gather_map {V : Type} [Zero V] [Add V] (G : Assembly.Dist V) (bs : List (Assembly.BlockField V)) :
    (Assembly.gather G bs).map (·.map Prod.fst) = G.map (·.map Prod.fst) := by
  have hz : ∀ t : Assembly.Dist V, (Assembly.zeroOut t).map (·.map Prod.fst) = t.map (·.map Prod.fst) := by
    intro t; simp [Assembly.zeroOut, Function.comp_def]
  have : ∀ acc : Assembly.Dist V, acc.map (·.map Prod.fst) = G.map (·.map Prod.fst) →
      (Assembly.gatherLoop G bs acc).map (·.map Prod.fst) = G.map (·.map Prod.fst) := by
    induction bs with
    | nil => intro acc h; exact h
    | cons b bs ih =>
      intro acc h
      rw [Assembly.gatherLoop]
      apply ih
      rw [update_map _ _ (by rw [exportAdd_map, hz, h]), h]
  exact this _ (hz G)

/-- All values a state's blocks hold for a point add up to the force density on it. -/
theorem contributions_eq {W : World} (hW : W.Valid) {cn : Nat → List Nat} {y v : Nat → V3} {models : List (Nat × Model)}
    (hM : ValidModels W models) {s : State} (h : Loaded W cn y v models s) (hB : Built W cn y v s)
    {forces : List (Assembly.Dist V3)} (hf : evaluate s = .ok forces) (pick : Nat → Nat → Nat) (g : Nat) :
    (Assembly.contributions (forces.map fun d => (⟨some d, pick⟩ : Assembly.BlockField V3)) g).sum =
      forceOn W (paramsOf models) cn y v g := by
  rw [evaluate, Redist.allOk_iff] at hf
  have hd : List.Forall₂ (fun (B : ContactBlock) d => d = s.parts.map fun c =>
      (overlapIn W cn c.owned B.id).map fun g =>
        (g, partial_ (paramsOf models B.id) ⟨y, v, W.vol⟩ cn (ownIn W c.owned B.id) g)) s.blocks forces := by
    refine List.forall₂_iff_zip.2 ⟨hf.length_eq, ?_⟩
    intro B d hBd
    have h1 := (List.forall₂_iff_zip.1 hf).2 hBd
    have hm := (List.of_mem_zip hBd).1
    have h2 := hB B hm
    have hmod : (B.id, B.model) ∈ models := h.models ▸ List.mem_map.2 ⟨B, hm, rfl⟩
    have hP : paramsOf models B.id = B.model.params := by
      rw [paramsOf, lookup_of_mem hM.nodup hmod]
    rw [Redist.allOk_iff] at h1
    rw [hP]
    have hR := hM.radius _ hmod
    have hg : ∀ c ∈ s.parts, c.owned.Nodup := fun c hc => (h.parts.part c hc).nodup
    clear hBd hf h hm hB
    generalize s.parts = ps at h2 hg
    generalize B.procs = pr at h1 h2
    induction h2 generalizing d with
    | nil => cases h1; rfl
    | cons hr _ ih =>
      cases h1 with
      | cons h3 h4 =>
        rw [List.map_cons, ← ih (fun c hc => hg c (List.mem_cons_of_mem _ hc)) h4]
        congr 1
        obtain ⟨bonds, rfl⟩ := hr
        exact localForce_eq hW (hg _ List.mem_cons_self) hR h3
  -- sum over blocks and parts
  have hsum : (Assembly.contributions (forces.map fun d => (⟨some d, pick⟩ : Assembly.BlockField V3)) g).sum =
      ((models.map Prod.fst).map fun b => (s.parts.map fun c =>
        partial_ (paramsOf models b) ⟨y, v, W.vol⟩ cn (ownIn W c.owned b) g).sum).sum := by
    have hids : models.map Prod.fst = s.blocks.map ContactBlock.id := by
      rw [← h.models]; simp [Function.comp_def]
    rw [hids, List.map_map]
    unfold Assembly.contributions
    rw [List.flatMap_map, sum_flatMap]
    congr 1
    clear hids hB hf
    have hg : ∀ c ∈ s.parts, c.owned.Nodup := fun c hc => (h.parts.part c hc).nodup
    clear h
    generalize s.blocks = bl at hd
    induction hd with
    | nil => rfl
    | cons hr _ ih =>
      rw [List.map_cons, List.map_cons, ih]
      congr 1
      subst hr
      simp only [Option.getD_some, Function.comp_apply]
      rw [List.flatMap_map, sum_flatMap]
      congr 1
      apply List.map_congr_left
      intro c hc
      rw [filter_part _ (overlapIn_nodup (hg c hc) cn _)]
      intro hno
      apply partial_zero
      · exact fun hx => hno (List.mem_append_left _ hx)
      · exact fun i hi hj => hno (mem_overlapIn hi hj)
  rw [hsum]
  have hswap : ((models.map Prod.fst).map fun b => (s.parts.map fun c =>
        partial_ (paramsOf models b) ⟨y, v, W.vol⟩ cn (ownIn W c.owned b) g).sum).sum =
      (s.parts.map fun c => ((models.map Prod.fst).map fun b =>
        partial_ (paramsOf models b) ⟨y, v, W.vol⟩ cn (ownIn W c.owned b) g).sum).sum := by
    generalize models.map Prod.fst = bs
    induction bs with
    | nil => simp
    | cons b bs ih =>
      simp only [List.map_cons, List.sum_cons]
      rw [ih, List.sum_map_add]
  rw [hswap]
  have hin : ∀ c ∈ s.parts, ((models.map Prod.fst).map fun b =>
        partial_ (paramsOf models b) ⟨y, v, W.vol⟩ cn (ownIn W c.owned b) g).sum =
      (c.owned.map fun i => ((cn i).map fun j => pairTerm (paramsOf models (W.block i)) ⟨y, v, W.vol⟩ g i j).sum).sum := by
    intro c hc
    exact sum_blocks W.block _ hM.nodup c.owned (fun i hi => hM.block i (h.parts.mem hc hi))
      (fun b i => ((cn i).map fun j => pairTerm (paramsOf models b) ⟨y, v, W.vol⟩ g i j).sum)
  rw [List.map_congr_left hin, forceOn]
  rw [← sum_flatMap, ← List.map_flatMap]
  exact (h.parts.owned.map _).sum_eq

theorem exportData_eq {W : World} (hW : W.Valid) {cn : Nat → List Nat} {y v : Nat → V3} {models : List (Nat × Model)}
    (hM : ValidModels W models) {s : State} (h : Loaded W cn y v models s) (hB : Built W cn y v s)
    {forces : List (Assembly.Dist V3)} (hf : evaluate s = .ok forces) (target : Assembly.Dist V3)
    (ht : ∀ part ∈ target, ∀ e ∈ part, e.1 ∈ W.ids) :
    exportData s forces target =
      target.map fun part => part.map fun e => (e.1, forceOn W (paramsOf models) cn y v e.1) := by
  unfold exportData transfer
  apply List.map_congr_left
  intro part hpart
  unfold receive
  apply List.map_congr_left
  intro e he
  have hg := ht part hpart e he
  set G : Assembly.Dist V3 := s.parts.map fun c => zeros c.owned with hG
  have hflat : (G.flatten.map Prod.fst) = s.parts.flatMap Contact.Part.owned := by
    rw [hG]
    simp [zeros, List.map_flatten, Function.comp_def, List.flatMap_def]
  have hown : ∀ p k, Assembly.Owns G p k → ∃ c, s.parts[p]? = some c ∧ k ∈ c.owned := by
    rintro p k ⟨part, hp, hk⟩
    rw [hG, List.getElem?_map] at hp
    obtain ⟨c, hc, rfl⟩ := Option.map_eq_some_iff.1 hp
    exact ⟨c, hc, by simpa [zeros, Function.comp_def] using hk⟩
  obtain ⟨c, hc, hgc⟩ := List.mem_flatMap.1 (h.parts.owned.mem_iff.2 hg)
  obtain ⟨p, hp⟩ := List.mem_iff_getElem?.1 hc
  have hO : Assembly.Owns G p e.1 := by
    refine ⟨zeros c.owned, by rw [hG, List.getElem?_map, hp]; rfl, by simpa [zeros, Function.comp_def] using hgc⟩
  have htot := Assembly.C12_total G (forces.map fun d => ⟨some d, fun _ g => owner s.parts g⟩) (by
    intro b hb q k p' hO'
    obtain ⟨d, _, rfl⟩ := List.mem_map.1 hb
    obtain ⟨c', hc', hk⟩ := hown p' k hO'
    exact owner_eq hW h.parts hc' hk) p e.1 hO
  rw [contributions_eq hW hM h hB hf] at htot
  rw [flatten_lookup ?_ htot]
  · rfl
  · rw [List.map_flatten, gather_map, ← List.map_flatten, hflat]
    exact h.parts.owned.nodup_iff.2 hW.nodup

theorem evaluate_some {W : World} {cn : Nat → List Nat} {y v : Nat → V3} {models : List (Nat × Model)} {s : State}
    (h : Loaded W cn y v models s) (hB : Built W cn y v s) (hh : ∀ x ∈ models, x.2.params.horizon ≠ 0)
    (hd : Apart W cn y) : ∃ forces, evaluate s = .ok forces := by
  apply allOk_some
  intro B hBm
  apply allOk_some
  intro l hl
  obtain ⟨k, hk⟩ := List.mem_iff_getElem?.1 hl
  have h2 := hB B hBm
  have hmod : (B.id, B.model) ∈ models := h.models ▸ List.mem_map.2 ⟨B, hBm, rfl⟩
  obtain ⟨hlt, hk'⟩ := List.getElem?_eq_some_iff.1 hk
  have hz : (l, s.parts[k]'(h2.length_eq ▸ hlt)) ∈ B.procs.zip s.parts := by
    rw [List.mem_iff_getElem?]
    exact ⟨k, by simp [List.getElem?_zip_eq_some, hk]⟩
  obtain ⟨bonds, hl'⟩ := (List.forall₂_iff_zip.1 h2).2 hz
  rw [hl']
  exact localForce_some (hh _ hmod) fun i hi => hd i (h.parts.mem (List.getElem_mem _) hi)

end Verif.Touch
