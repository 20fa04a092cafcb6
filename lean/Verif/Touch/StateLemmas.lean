import Verif.Touch.BlockLemmas
import Verif.Contact.RebalanceProps

/-! Closed forms of the contact manager's state. -/

noncomputable section

namespace Verif.Touch

open Verif Verif.Mech Verif.Neigh Verif.Contact
open scoped Classical

theorem allOk_map {β γ : Type} (f : β → Outcome γ) (g : β → γ) (l : List β) (h : ∀ x ∈ l, f x = .ok (g x)) :
    Redist.allOk f l = .ok (l.map g) := by
  rw [Redist.allOk_iff, List.forall₂_map_right_iff, List.forall₂_same]
  exact h

theorem allOk_some {β γ : Type} (f : β → Outcome γ) (l : List β) (h : ∀ x ∈ l, ∃ y, f x = .ok y) :
    ∃ r, Redist.allOk f l = .ok r := by
  induction l with
  | nil => exact ⟨[], rfl⟩
  | cons x l ih =>
    obtain ⟨y, hy⟩ := h x List.mem_cons_self
    obtain ⟨r, hr⟩ := ih fun z hz => h z (List.mem_cons_of_mem _ hz)
    refine ⟨y :: r, ?_⟩
    rw [Redist.allOk_iff] at hr ⊢
    exact .cons hy hr

theorem lookup_of_mem {V : Type} {l : List (Nat × V)} (hn : (l.map Prod.fst).Nodup) {g : Nat} {x : V} (h : (g, x) ∈ l) :
    l.lookup g = some x := by
  induction l with
  | nil => cases h
  | cons e l ih =>
    rw [List.map_cons, List.nodup_cons] at hn
    rw [show e = (e.1, e.2) from rfl, List.lookup_cons]
    rcases List.mem_cons.1 h with h | h
    · subst h; simp
    · have hne : g ≠ e.1 := by
        intro h1
        exact hn.1 (List.mem_map.2 ⟨_, h, h1⟩)
      rw [show (g == e.1) = false by simpa using hne]
      exact ih hn.2 h

theorem Carries.lookup {V : Type} {ids : List Nat} {φ : Nat → V} {d : Assembly.Dist V} (h : Carries ids φ d) (hn : ids.Nodup)
    {g : Nat} (hg : g ∈ ids) : d.flatten.lookup g = some (φ g) := by
  apply lookup_of_mem
  · have := (h.map Prod.fst).nodup_iff.2 (by simpa [Function.comp_def] using hn)
    exact this
  · exact h.mem_iff.2 (List.mem_map.2 ⟨g, hg, rfl⟩)

theorem receive_eq {V : Type} {ids : List Nat} {φ : Nat → V} {src : Assembly.Dist V} (h : Carries ids φ src) (hn : ids.Nodup)
    (ψ : Nat → V) (gs : List Nat) (hg : ∀ g ∈ gs, g ∈ ids) :
    receive src (gs.map fun g => (g, ψ g)) = gs.map fun g => (g, φ g) := by
  unfold receive
  rw [List.map_map]
  apply List.map_congr_left
  intro g hm
  simp only [Function.comp_apply]
  rw [h.lookup hn (hg g hm)]
  rfl

/-- A vector on the contact map with the values `φ`. -/
def onParts {V : Type} (parts : List Contact.Part) (φ : Nat → V) : Assembly.Dist V :=
  parts.map fun c => c.owned.map fun g => (g, φ g)

theorem carries_onParts {V : Type} {parts : List Contact.Part} {ids : List Nat}
    (h : (parts.flatMap Contact.Part.owned).Perm ids) (φ : Nat → V) : Carries ids φ (onParts parts φ) := by
  have e : (onParts parts φ).flatten = (parts.flatMap Contact.Part.owned).map fun g => (g, φ g) := by
    unfold onParts
    induction parts with
    | nil => rfl
    | cons c parts ih =>
      clear h
      simp only [List.map_cons, List.flatten_cons, List.flatMap_cons, List.map_append]
      congr 1
      rw [List.map_flatMap, List.flatMap]
  unfold Carries
  rw [e]
  exact h.map _

theorem transfer_eq {V : Type} {ids : List Nat} {φ : Nat → V} {src : Assembly.Dist V} (h : Carries ids φ src)
    (hn : ids.Nodup) (ψ : Nat → V) (parts : List Contact.Part) (hp : (parts.flatMap Contact.Part.owned).Perm ids) :
    transfer src (onParts parts ψ) = onParts parts φ := by
  unfold transfer onParts
  rw [List.map_map]
  apply List.map_congr_left
  intro c hc
  simp only [Function.comp_apply]
  exact receive_eq h hn ψ c.owned fun g hg => hp.mem_iff.1 (List.mem_flatMap.2 ⟨c, hc, hg⟩)

theorem zeros_onParts {V : Type} [Zero V] (parts : List Contact.Part) :
    (parts.map fun c => zeros c.owned) = onParts parts fun _ => (0 : V) := rfl

/-- The maps and mothership vectors of a state, and the models of its blocks. -/
structure Loaded (W : World) (cn : Nat → List Nat) (y v : Nat → V3) (models : List (Nat × Model)) (s : State) : Prop where
  parts : GoodParts W cn s.parts
  near : ∀ g ∈ W.ids, ∀ k ∈ cn g, k ∈ W.ids
  block : s.block = onParts s.parts W.block
  vol : s.vol = onParts s.parts W.vol
  y : s.y = onParts s.parts y
  v : s.v = onParts s.parts v
  models : s.blocks.map (fun B => (B.id, B.model)) = models

/-- The blocks' maps, lists and vectors are right. -/
def Built (W : World) (cn : Nat → List Nat) (y v : Nat → V3) (s : State) : Prop :=
  ∀ B ∈ s.blocks, List.Forall₂ (fun l (c : Contact.Part) => ∃ bonds, l = localOf W cn W.vol y v B.id bonds c.owned)
    B.procs s.parts

theorem GoodParts.mem {W : World} {cn : Nat → List Nat} {parts : List Contact.Part} (h : GoodParts W cn parts)
    {c : Contact.Part} (hc : c ∈ parts) {g : Nat} (hg : g ∈ c.owned) : g ∈ W.ids :=
  h.owned.mem_iff.1 (List.mem_flatMap.2 ⟨c, hc, hg⟩)

theorem overlap_ids {W : World} {cn : Nat → List Nat} {parts : List Contact.Part} (h : GoodParts W cn parts)
    (near : ∀ g ∈ W.ids, ∀ k ∈ cn g, k ∈ W.ids) {c : Contact.Part} (hc : c ∈ parts) (b : Nat) :
    ∀ g ∈ overlapIn W cn c.owned b, g ∈ W.ids := by
  intro g hg
  rcases overlapIn_sub hg with h1 | ⟨i, hi, h1⟩
  · exact h.mem hc h1
  · exact near i (h.mem hc hi) g h1

theorem buildBlocks_eq {W : World} (hW : W.Valid) {cn : Nat → List Nat} {y v : Nat → V3} {models : List (Nat × Model)}
    {s : State} (h : Loaded W cn y v models s) :
    ∃ s', buildBlocks s = .ok s' ∧ Loaded W cn y v models s' ∧ Built W cn y v s' ∧ s'.parts = s.parts := by
  have key : ∀ B ∈ s.blocks, ∃ B', buildBlock s.parts s.block B = .ok B' ∧ B'.id = B.id ∧ B'.model = B.model ∧
      List.Forall₂ (fun l (c : Contact.Part) => ∃ bonds,
        l = localOf W cn (fun _ => 0) (fun _ => 0) (fun _ => 0) B.id bonds c.owned) B'.procs s.parts := by
    intro B _
    have hz : s.parts.zip s.block = s.parts.map fun c => (c, c.owned.map fun g => (g, W.block g)) := by
      rw [h.block]
      unfold onParts
      generalize s.parts = ps
      induction ps with
      | nil => rfl
      | cons c ps ih => rw [List.map_cons, List.zip_cons_cons, ih]; rfl
    have h1 : ∀ x ∈ s.parts.zip s.block, ∃ l, buildLocal x.1 (x.2.map Prod.snd) B.id = .ok l := by
      rw [hz]
      intro x hx
      obtain ⟨c, hc, rfl⟩ := List.mem_map.1 hx
      obtain ⟨bonds, h2⟩ := buildLocal_eq (h.parts.part c hc) B.id
      refine ⟨localOf W cn (fun _ => 0) (fun _ => 0) (fun _ => 0) B.id bonds c.owned, ?_⟩
      simpa [Function.comp_def] using h2
    obtain ⟨r, hr⟩ := allOk_some _ _ h1
    refine ⟨{ B with procs := r }, by rw [buildBlock, hr, Outcome.ok_bind], rfl, rfl, ?_⟩
    rw [Redist.allOk_iff, hz, List.forall₂_map_left_iff] at hr
    refine (List.forall₂_iff_zip.2 ⟨hr.length_eq.symm, ?_⟩)
    intro l c hlc
    have hcl : (c, l) ∈ s.parts.zip r := by
      rw [← List.zip_swap]
      exact List.mem_map.2 ⟨(l, c), hlc, rfl⟩
    have h3 := (List.forall₂_iff_zip.1 hr).2 hcl
    obtain ⟨bonds, h4⟩ := buildLocal_eq (h.parts.part c (List.of_mem_zip hcl).1) B.id
    refine ⟨bonds, ?_⟩
    have h5 : Outcome.ok l = .ok (localOf W cn (fun _ => 0) (fun _ => 0) (fun _ => 0) B.id bonds c.owned) := by
      rw [← h4, ← h3]
      simp [Function.comp_def]
    exact Outcome.ok.inj h5
  choose! f hf using key
  have hb : Redist.allOk (buildBlock s.parts s.block) s.blocks = .ok (s.blocks.map f) :=
    allOk_map _ f _ fun B hB => (hf B hB).1
  refine ⟨{ s with blocks := (s.blocks.map f).map (reload s) }, by rw [buildBlocks, hb, Outcome.ok_bind], ?_, ?_, rfl⟩
  · refine ⟨h.parts, h.near, h.block, h.vol, h.y, h.v, ?_⟩
    rw [← h.models]
    simp only [List.map_map]
    apply List.map_congr_left
    intro B hB
    simp only [Function.comp_apply, reload, (hf B hB).2.1, (hf B hB).2.2.1]
  · intro B hB
    simp only [List.mem_map, exists_exists_and_eq_and] at hB
    obtain ⟨B0, hB0, rfl⟩ := hB
    obtain ⟨_, h1, h2, h3⟩ := hf B0 hB0
    simp only [reload]
    rw [List.forall₂_map_left_iff, h1]
    refine List.forall₂_iff_zip.2 ⟨h3.length_eq, ?_⟩
    intro l c hlc
    obtain ⟨bonds, hl⟩ := (List.forall₂_iff_zip.1 h3).2 hlc
    have hov := overlap_ids h.parts h.near (List.of_mem_zip hlc).2 B0.id
    refine ⟨bonds, ?_⟩
    rw [hl]
    simp only [localOf]
    rw [h.vol, h.y, h.v, receive_eq (carries_onParts h.parts.owned W.vol) hW.nodup _ _ hov,
      receive_eq (carries_onParts h.parts.owned y) hW.nodup _ _ hov,
      receive_eq (carries_onParts h.parts.owned v) hW.nodup _ _ hov]

theorem start_eq {W : World} (hW : W.Valid) {cn : Nat → List Nat} {y v : Nat → V3} {models : List (Nat × Model)}
    {parts : List Contact.Part} (hp : GoodParts W cn parts) (near : ∀ g ∈ W.ids, ∀ k ∈ cn g, k ∈ W.ids) {M : Mothership}
    (hb : Carries W.ids W.block M.block) (hv : Carries W.ids W.vol M.vol) (hy : Carries W.ids y M.y)
    (hv' : Carries W.ids v M.v) :
    ∃ s, start parts models M = .ok s ∧ Loaded W cn y v models s ∧ Built W cn y v s ∧ s.parts = parts := by
  refine buildBlocks_eq hW ⟨hp, near, ?_, ?_, ?_, ?_, by simp [Function.comp_def]⟩
  · exact transfer_eq hb hW.nodup _ parts hp.owned
  · exact transfer_eq hv hW.nodup _ parts hp.owned
  · exact transfer_eq hy hW.nodup _ parts hp.owned
  · exact transfer_eq hv' hW.nodup _ parts hp.owned

/-- The contact parts after a rebalance are good. -/
theorem rebalance_parts {W : World} (hW : W.Valid) {cn search : Nat → List Nat} {parts : List Contact.Part} (h : GoodParts W cn parts)
    {freq : Int} {n : Nat} (hf : freq ≠ 0) (hs : freq ∣ (n : Int)) {r : Round} (hr : GoodRound W search (parts.map Contact.Part.owned) r) :
    ∃ res, rebalanceContact freq n r parts = .ok res ∧ GoodParts W (unbonded W.bonds search) res ∧
      res.map Contact.Part.owned = r.tgt.map Prod.fst := by
  have get : ∀ (k : Nat) G, (parts.map Contact.Part.owned)[k]? = some G → ∃ c, parts[k]? = some c ∧ c.owned = G := by
    intro k G hk
    rw [List.getElem?_map] at hk
    exact Option.map_eq_some_iff.1 hk
  have hnd : ∀ x ∈ r.tgt, x.1.Nodup := by
    have := hr.owned.nodup_iff.2 hW.nodup
    intro x hx
    exact (List.nodup_flatMap.1 this).1 x hx
  have hval : ValidRound W.bonds search parts r := by
    refine ⟨hnd, hr.searched, ?_, ?_⟩
    · intro p x hx g hg
      obtain ⟨G, h1, h2⟩ := hr.pick1 p x hx g hg
      obtain ⟨c, h3, rfl⟩ := get _ _ h1
      exact ⟨c, h3, h2⟩
    · intro p x hx g hg h0
      obtain ⟨G, h1, h2⟩ := hr.pick2 p x hx g hg h0
      obtain ⟨c, h3, rfl⟩ := get _ _ h1
      exact ⟨c, h3, h2⟩
  obtain ⟨res, h1, h2, h3⟩ := C30_exactly_unbonded W.bonds search freq n parts r hf hs (fun c hc => (h.part c hc).nodup)
    (fun c hc => (h.part c hc).bonds) hval
  refine ⟨res, h1, ⟨?_, ?_⟩, h2⟩
  · intro c hc
    obtain ⟨h4, h5, gh, h6, h7, h8⟩ := h3 c hc
    have hn : c.owned.Nodup := by
      have : c.owned ∈ r.tgt.map Prod.fst := h2 ▸ List.mem_map_of_mem hc
      obtain ⟨x, hx, h9⟩ := List.mem_map.1 this
      exact h9 ▸ hnd x hx
    refine ⟨hn, h4, h5, gh, h6, ?_⟩
    rw [h6, List.nodup_append]
    refine ⟨hn, h7.imp (fun h => Nat.ne_of_lt h), ?_⟩
    intro a ha b hb hab
    subst hab
    exact ((h8 a).1 hb).2 ha
  · rw [List.flatMap_def, h2, ← List.flatMap_def]
    exact hr.owned

theorem rebalance_eq {W : World} (hW : W.Valid) {cn search : Nat → List Nat} {y v : Nat → V3}
    {models : List (Nat × Model)} {s : State} (h : Loaded W cn y v models s) {freq : Int} {n : Nat} (hf : freq ≠ 0)
    (hs : freq ∣ (n : Int)) {r : Round} (hr : GoodRound W search (s.parts.map Contact.Part.owned) r) :
    ∃ s', rebalance freq n r s = .ok s' ∧ Loaded W (unbonded W.bonds search) y v models s' ∧
      Built W (unbonded W.bonds search) y v s' ∧ s'.parts.map Contact.Part.owned = r.tgt.map Prod.fst := by
  obtain ⟨res, h1, h2, h6⟩ := rebalance_parts hW h.parts hf hs hr
  obtain ⟨s', h3, h4, h5, h7⟩ := buildBlocks_eq hW
    (s := { s with
        parts := res
        block := transfer s.block (res.map fun c => zeros c.owned)
        vol := transfer s.vol (res.map fun c => zeros c.owned)
        y := transfer s.y (res.map fun c => zeros c.owned)
        v := transfer s.v (res.map fun c => zeros c.owned) })
    (models := models) (cn := unbonded W.bonds search) (y := y) (v := v) ⟨h2, fun g hg k hk => hr.found g hg k
      (List.mem_filter.1 hk).1, by
        simp only [h.block]
        exact transfer_eq (carries_onParts h.parts.owned _) hW.nodup _ res h2.owned, by
        simp only [h.vol]
        exact transfer_eq (carries_onParts h.parts.owned _) hW.nodup _ res h2.owned, by
        simp only [h.y]
        exact transfer_eq (carries_onParts h.parts.owned _) hW.nodup _ res h2.owned, by
        simp only [h.v]
        exact transfer_eq (carries_onParts h.parts.owned _) hW.nodup _ res h2.owned, h.models⟩
  refine ⟨s', ?_, h4, h5, by rw [h7]; exact h6⟩
  rw [rebalance, if_neg hf, if_neg (by simpa using Int.tmod_eq_zero_of_dvd hs), h1, Outcome.ok_bind, h3]

theorem rebalance_skip {freq : Int} {n : Nat} (hf : freq ≠ 0) (hs : ¬ freq ∣ (n : Int)) (r : Round) (s : State) :
    rebalance freq n r s = .ok s := by
  rw [rebalance, if_neg hf, if_pos]
  exact fun h => hs (Int.dvd_of_tmod_eq_zero h)

theorem importData_eq {W : World} (hW : W.Valid) {cn : Nat → List Nat} {y v y' v' : Nat → V3}
    {models : List (Nat × Model)} {s : State} (h : Loaded W cn y v models s) (hB : Built W cn y v s)
    {dy dv : Assembly.Dist V3} (hy : Carries W.ids y' dy) (hv : Carries W.ids v' dv) :
    Loaded W cn y' v' models (importData dy dv s) ∧ Built W cn y' v' (importData dy dv s) ∧
      (importData dy dv s).parts = s.parts := by
  have e1 : transfer dy s.y = onParts s.parts y' := by
    rw [h.y]; exact transfer_eq hy hW.nodup _ s.parts h.parts.owned
  have e2 : transfer dv s.v = onParts s.parts v' := by
    rw [h.v]; exact transfer_eq hv hW.nodup _ s.parts h.parts.owned
  refine ⟨⟨h.parts, h.near, h.block, h.vol, e1, e2, ?_⟩, ?_, rfl⟩
  · rw [← h.models]
    simp [importData, Function.comp_def]
  · intro B hB'
    simp only [importData, List.mem_map] at hB'
    obtain ⟨B0, hB0, rfl⟩ := hB'
    simp only [importData]
    rw [List.forall₂_map_left_iff, e1, e2]
    have h3 := hB B0 hB0
    refine List.forall₂_iff_zip.2 ⟨h3.length_eq, ?_⟩
    intro l c hlc
    obtain ⟨bonds, hl⟩ := (List.forall₂_iff_zip.1 h3).2 hlc
    have hov := overlap_ids h.parts h.near (List.of_mem_zip hlc).2 B0.id
    refine ⟨bonds, ?_⟩
    rw [hl]
    simp only [localOf]
    rw [receive_eq (carries_onParts h.parts.owned y') hW.nodup _ _ hov,
      receive_eq (carries_onParts h.parts.owned v') hW.nodup _ _ hov]

theorem updateFriction_eq {W : World} {cn : Nat → List Nat} {y v : Nat → V3} {models models' : List (Nat × Model)}
    {s s' : State} (h : Loaded W cn y v models s) (hB : Built W cn y v s) {tc tp : ℝ}
    (hm : List.Forall₂ (fun x x' => x'.1 = x.1 ∧ evaluateFriction tc tp x.2 = .ok x'.2) models models') :
    updateFriction tc tp s = .ok s' → Loaded W cn y v models' s' ∧ Built W cn y v s' ∧ s'.parts = s.parts := by
  intro h1
  rw [updateFriction, Outcome.bind_eq_ok] at h1
  obtain ⟨bs, h2, h3⟩ := h1
  cases h3
  rw [Redist.allOk_iff] at h2
  refine ⟨⟨h.parts, h.near, h.block, h.vol, h.y, h.v, ?_⟩, ?_, rfl⟩
  · have e := h.models
    clear h hB
    simp only
    generalize s.blocks = l at h2 e
    subst e
    induction h2 generalizing models' with
    | nil => cases hm; rfl
    | cons hr _ ih =>
      cases hm with
      | cons hm1 hm2 =>
        rw [List.map_cons, ih hm2]
        rw [Outcome.bind_eq_ok] at hr
        obtain ⟨m, h4, h5⟩ := hr
        cases h5
        congr 1
        rw [hm1.2] at h4
        cases h4
        exact Prod.ext hm1.1.symm rfl
  · intro B hB'
    obtain ⟨i, hi⟩ := List.mem_iff_getElem?.1 hB'
    have : ∃ B0 ∈ s.blocks, B.id = B0.id ∧ B.procs = B0.procs := by
      clear hm h hB
      simp only at hB' hi
      clear hi i
      generalize s.blocks = l at h2
      induction h2 with
      | nil => cases hB'
      | cons hr _ ih =>
        rcases List.mem_cons.1 hB' with rfl | hB'
        · rw [Outcome.bind_eq_ok] at hr
          obtain ⟨m, _, h5⟩ := hr
          cases h5
          exact ⟨_, List.mem_cons_self, rfl, rfl⟩
        · obtain ⟨B0, h6, h7⟩ := ih hB'
          exact ⟨B0, List.mem_cons_of_mem _ h6, h7⟩
    obtain ⟨B0, h6, h7, h8⟩ := this
    have := hB B0 h6
    rw [h7, h8]
    exact this

theorem updateFriction_some {W : World} {cn : Nat → List Nat} {y v : Nat → V3} {models models' : List (Nat × Model)}
    {s : State} (h : Loaded W cn y v models s) {tc tp : ℝ}
    (hm : List.Forall₂ (fun x x' => x'.1 = x.1 ∧ evaluateFriction tc tp x.2 = .ok x'.2) models models') :
    ∃ s', updateFriction tc tp s = .ok s' := by
  have h1 : ∀ B ∈ s.blocks, ∃ B' : ContactBlock, (do
      let m ← evaluateFriction tc tp B.model
      Outcome.ok { B with model := m }) = .ok B' := by
    intro B hB
    have : (B.id, B.model) ∈ models := h.models ▸ List.mem_map.2 ⟨B, hB, rfl⟩
    have h2 : ∃ m, evaluateFriction tc tp B.model = .ok m := by
      clear h hB
      induction hm with
      | nil => cases this
      | cons hr _ ih =>
        rcases List.mem_cons.1 this with h3 | h3
        · rw [← h3] at hr; exact ⟨_, hr.2⟩
        · exact ih h3
    obtain ⟨m, hm⟩ := h2
    exact ⟨_, by rw [hm, Outcome.ok_bind]⟩
  obtain ⟨bs, h2⟩ := allOk_some _ _ h1
  exact ⟨_, by rw [updateFriction, h2, Outcome.ok_bind]⟩

end Verif.Touch
