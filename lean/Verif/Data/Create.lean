import Verif.Data.Invariant

/-! Helper lemmas: creating a data manager preserves the invariant. -/

namespace Verif.Data

open Verif Verif.Field

variable {α : Type}

/-- What allocations leave untouched. -/
structure Frame (w w' : World α) : Prop where
  fm : w'.fm = w.fm
  mono : w.next ≤ w'.next
  heap : ∀ r, r < w.next → w'.heap r = w.heap r
  look : ∀ k r, w.globalData.lookup k = some r → w'.globalData.lookup k = some r

theorem Frame.refl (w : World α) : Frame w w :=
  ⟨rfl, Nat.le_refl _, fun _ _ => rfl, fun _ _ h => h⟩

theorem Frame.trans {w₁ w₂ w₃ : World α} (h₁ : Frame w₁ w₂) (h₂ : Frame w₂ w₃) : Frame w₁ w₃ :=
  ⟨h₂.fm.trans h₁.fm, Nat.le_trans h₁.mono h₂.mono,
   fun r hr => (h₂.heap r (Nat.lt_of_lt_of_le hr h₁.mono)).trans (h₁.heap r hr),
   fun k r h => h₂.look k r (h₁.look k r h)⟩

def upd (S : Family) (b : Nat) (s : Step) (st : State) : Family :=
  fun b' s' => if b' = b ∧ s' = s then some st else S b' s'

theorem upd_same (S : Family) (b : Nat) (s : Step) (st : State) : upd S b s st b s = some st := by
  simp [upd]

theorem upd_ne (S : Family) {b b' : Nat} {s s' : Step} (st : State) (h : ¬ (b' = b ∧ s' = s)) :
    upd S b s st b' s' = S b' s' := by
  simp [upd, h]

theorem new_ref (f : Nat) : State.new.ref f = none := by simp [State.ref, State.new]

theorem upd_new_inv {w : World α} {S : Family} (hI : WInv w S) (b : Nat) (s : Step)
    (hS : S b s = none) : WInv w (upd S b s State.new) := by
  have ha : ∀ k, addr w (upd S b s State.new) k = addr w S k := by
    intro k
    cases k with
    | glob f t => rfl
    | loc b' s' f =>
      simp only [addr]
      by_cases h : b' = b ∧ s' = s
      · obtain ⟨rfl, rfl⟩ := h
        rw [upd_same, hS]
        simp [new_ref]
      · rw [upd_ne _ _ h]
  refine ⟨hI.rep, ?_, ?_, ?_, ?_, ?_, hI.pairS, hI.pairV, hI.covered, hI.covered'⟩
  · intro k₁ k₂ r h1 h2
    rw [ha] at h1 h2
    exact hI.inj k₁ k₂ r h1 h2
  · intro k r h; rw [ha] at h; exact hI.bound k r h
  · intro b' s' st h f
    by_cases hh : b' = b ∧ s' = s
    · obtain ⟨rfl, rfl⟩ := hh
      rw [upd_same] at h
      cases h
      rw [new_ref]; rfl
    · rw [upd_ne _ _ hh] at h
      exact hI.agree b' s' st h f
  · intro b' s' f r h; rw [ha] at h; exact hI.locNot b' s' f r h
  · intro f t r h; rw [ha] at h; exact hI.globIs f t r h

theorem alloc_step {w w' : World α} {S : Family} {b : Nat} {s : Step} {st st' : State}
    {ids : List Nat} (hI : WInv w S) (hS : S b s = some st) (hA : AllocSpec w st ids w' st')
    (hloc : ∀ f ∈ ids, isGlobalSpec w.fm f = .ok false) :
    WInv w' (upd S b s st') ∧ Frame w w' ∧ w'.allGlobalFieldIds = w.allGlobalFieldIds ∧
      w'.globalData = w.globalData := by
  obtain ⟨h, hw⟩ := hA.world
  have e1 : w'.fm = w.fm := by rw [hw]
  have e2 : w'.globalData = w.globalData := by rw [hw]
  have e3 : w'.allGlobalFieldIds = w.allGlobalFieldIds := by rw [hw]
  have e4 : w'.scalarN = w.scalarN := by rw [hw]
  have e5 : w'.scalarNP1 = w.scalarNP1 := by rw [hw]
  have e6 : w'.vectorN = w.vectorN := by rw [hw]
  have e7 : w'.vectorNP1 = w.vectorNP1 := by rw [hw]
  -- addresses
  have ha : ∀ k r, addr w' (upd S b s st') k = some r →
      addr w S k = some r ∨ (w.next ≤ r ∧ r < w'.next ∧ ∃ f ∈ ids, k = .loc b s f) := by
    intro k r hk
    cases k with
    | glob f t => left; simp only [addr] at hk ⊢; rw [e2] at hk; exact hk
    | loc b' s' f =>
      simp only [addr] at hk ⊢
      by_cases hh : b' = b ∧ s' = s
      · obtain ⟨rfl, rfl⟩ := hh
        rw [upd_same] at hk
        simp only [Option.bind_some] at hk
        by_cases hf : f ∈ ids
        · right
          obtain ⟨r', h1, h2, h3⟩ := hA.fresh f hf
          rw [h1] at hk
          cases hk
          exact ⟨h2, h3, f, hf, rfl⟩
        · left
          rw [hS, Option.bind_some, ← hA.old f hf]
          exact hk
      · left
        rw [upd_ne _ _ hh] at hk
        exact hk
  have hpair : ∀ k ns ps, PairOK k w ns ps → PairOK k w' ns ps := by
    intro k ns ps hP
    refine List.Forall₂.imp ?_ hP
    rintro n p ⟨f, h1, h2, h3, h4, h5⟩
    have hn : n < w.next := hI.bound (.glob f .n) n h1
    have hp : p < w.next := hI.bound (.glob f .np1) p h2
    refine ⟨f, by rw [e2]; exact h1, by rw [e2]; exact h2, ?_, ?_, ?_⟩
    · rw [hA.heap n hn, hA.heap p hp]; exact h3
    · rw [hA.heap n hn]; exact h4
    · rw [hA.heap p hp]; exact h5
  refine ⟨⟨?_, ?_, ?_, ?_, ?_, ?_, ?_, ?_, ?_, ?_⟩, ⟨e1, hA.mono, hA.heap, ?_⟩, e3, e2⟩
  · rw [e1]; exact hI.rep
  · intro k₁ k₂ r h1 h2
    rcases ha k₁ r h1 with a1 | ⟨l1, u1, f, hf, rfl⟩ <;> rcases ha k₂ r h2 with a2 | ⟨l2, u2, g, hg, rfl⟩
    · exact hI.inj k₁ k₂ r a1 a2
    · have := hI.bound k₁ r a1; omega
    · have := hI.bound k₂ r a2; omega
    · simp only [addr] at h1 h2
      rw [upd_same] at h1 h2
      have := hA.inj f hf g hg (h1.trans h2.symm)
      rw [this]
  · intro k r hk
    rcases ha k r hk with a | ⟨_, u, _⟩
    · exact Nat.lt_of_lt_of_le (hI.bound k r a) hA.mono
    · exact u
  · intro b' s' st₁ h f
    by_cases hh : b' = b ∧ s' = s
    · obtain ⟨rfl, rfl⟩ := hh
      rw [upd_same] at h
      cases h
      exact hA.agree (hI.agree b' s' st hS) f
    · rw [upd_ne _ _ hh] at h
      exact hI.agree b' s' st₁ h f
  · intro b' s' f r hk
    rw [e1]
    rcases ha _ r hk with a | ⟨_, _, g, hg, he⟩
    · exact hI.locNot b' s' f r a
    · cases he; exact hloc f hg
  · intro f t r hk
    rw [e1, e3]
    simp only [addr] at hk
    rw [e2] at hk
    exact hI.globIs f t r hk
  · rw [e4, e5]; exact hpair _ _ _ hI.pairS
  · rw [e6, e7]; exact hpair _ _ _ hI.pairV
  · intro f r hk
    simp only [addr] at hk
    rw [e2] at hk
    rw [e4, e6]; exact hI.covered f r hk
  · intro f r hk
    simp only [addr] at hk
    rw [e2] at hk
    rw [e5, e7]; exact hI.covered' f r hk
  · intro k r hk; rw [e2]; exact hk

/-- Fields stay allocated. -/
theorem AllocSpec.keeps {w w' : World α} {st st' : State} {ids : List Nat}
    (hA : AllocSpec w st ids w' st') {f : Nat} (h : (st.ref f).isSome) : (st'.ref f).isSome := by
  by_cases hf : f ∈ ids
  · obtain ⟨r, hr, -⟩ := hA.fresh f hf
    rw [hr]; rfl
  · rw [hA.old f hf]; exact h

theorem AllocSpec.gets {w w' : World α} {st st' : State} {ids : List Nat}
    (hA : AllocSpec w st ids w' st') {f : Nat} (hf : f ∈ ids) : (st'.ref f).isSome := by
  obtain ⟨r, hr, -⟩ := hA.fresh f hf
  rw [hr]; rfl

/-! ### The loops over point data -/

theorem upd_upd (S : Family) (b : Nat) (s : Step) (st st' : State) :
    upd (upd S b s st) b s st' = upd S b s st' := by
  funext b' s'
  unfold upd
  split_ifs <;> rfl

theorem upd_comm (S : Family) (b : Nat) {s s' : Step} (h : s ≠ s') (st st' : State) :
    upd (upd S b s st) b s' st' = upd (upd S b s' st') b s st := by
  funext b' t
  unfold upd
  split_ifs with h1 h2 h2 <;> try rfl
  exact absurd (h2.2.symm.trans h1.2) h

theorem allocPoints_inv [Zero α] {dm : DataManager} {b : Nat} {s : Step}
    (es : List (Length × List Nat)) {w w' : World α} {st st' : State} {S : Family}
    (hI : WInv w (upd S b s st))
    (hloc : ∀ e ∈ es, ∀ f ∈ e.2, isGlobalSpec w.fm f = .ok false)
    (h : allocPoints dm es w st = .ok (w', st')) :
    WInv w' (upd S b s st') ∧ Frame w w' ∧ w'.allGlobalFieldIds = w.allGlobalFieldIds ∧
      w'.globalData = w.globalData ∧
      (∀ f, (st.ref f).isSome → (st'.ref f).isSome) ∧
      (∀ e ∈ es, ∀ f ∈ e.2, (st'.ref f).isSome) := by
  induction es generalizing w st with
  | nil =>
    simp only [allocPoints] at h
    cases h
    exact ⟨hI, Frame.refl _, rfl, rfl, fun _ h => h, by simp⟩
  | cons e es ih =>
    obtain ⟨len, ids⟩ := e
    simp only [allocPoints] at h
    split at h <;> try cases h
    rename_i m hm
    split at h <;> try cases h
    rename_i w1 st1 ha
    have hA := allocatePointData_spec ha
    obtain ⟨i1, f1, g1, d1⟩ := alloc_step hI (upd_same _ _ _ _) hA
      (fun f hf => hloc _ (List.mem_cons_self) f hf)
    rw [upd_upd] at i1
    obtain ⟨i2, f2, g2, d2, k2, c2⟩ := ih i1 (fun e he f hf => by
      rw [f1.fm]; exact hloc e (List.mem_cons_of_mem _ he) f hf) h
    refine ⟨i2, f1.trans f2, g2.trans g1, d2.trans d1, fun f hf => k2 f (hA.keeps hf), ?_⟩
    intro e he f hf
    rcases List.mem_cons.1 he with rfl | he
    · exact k2 f (hA.gets hf)
    · exact c2 e he f hf

theorem allocPoints2_inv [Zero α] {dm : DataManager} {b : Nat}
    (es : List (Length × List Nat)) {w w' : World α} {stN stP stN' stP' : State} {S : Family}
    (hI : WInv w (upd (upd S b .n stN) b .np1 stP))
    (hloc : ∀ e ∈ es, ∀ f ∈ e.2, isGlobalSpec w.fm f = .ok false)
    (h : allocPoints2 dm es w stN stP = .ok (w', stN', stP')) :
    WInv w' (upd (upd S b .n stN') b .np1 stP') ∧ Frame w w' ∧
      w'.allGlobalFieldIds = w.allGlobalFieldIds ∧ w'.globalData = w.globalData ∧
      (∀ f, (stN.ref f).isSome → (stN'.ref f).isSome) ∧
      (∀ f, (stP.ref f).isSome → (stP'.ref f).isSome) ∧
      (∀ e ∈ es, ∀ f ∈ e.2, (stN'.ref f).isSome ∧ (stP'.ref f).isSome) := by
  induction es generalizing w stN stP with
  | nil =>
    simp only [allocPoints2] at h
    cases h
    exact ⟨hI, Frame.refl _, rfl, rfl, fun _ h => h, fun _ h => h, by simp⟩
  | cons e es ih =>
    obtain ⟨len, ids⟩ := e
    simp only [allocPoints2] at h
    split at h <;> try cases h
    rename_i m hm
    split at h <;> try cases h
    rename_i w1 stN1 ha
    split at h <;> try cases h
    rename_i w2 stP1 hb
    have hA := allocatePointData_spec ha
    have hB := allocatePointData_spec hb
    have hne : (Step.n : Step) ≠ .np1 := by decide
    rw [upd_comm _ _ hne] at hI
    obtain ⟨i1, f1, g1, d1⟩ := alloc_step hI (upd_same _ _ _ _) hA
      (fun f hf => hloc _ (List.mem_cons_self) f hf)
    rw [upd_upd, ← upd_comm _ _ hne] at i1
    obtain ⟨i2, f2, g2, d2⟩ := alloc_step i1 (upd_same _ _ _ _) hB
      (fun f hf => by rw [f1.fm]; exact hloc _ (List.mem_cons_self) f hf)
    rw [upd_upd] at i2
    obtain ⟨i3, f3, g3, d3, kN, kP, c3⟩ := ih i2 (fun e he f hf => by
      rw [f2.fm, f1.fm]; exact hloc e (List.mem_cons_of_mem _ he) f hf) h
    refine ⟨i3, (f1.trans f2).trans f3, g3.trans (g2.trans g1), d3.trans (d2.trans d1),
      fun f hf => kN f (hA.keeps hf), fun f hf => kP f (hB.keeps hf), ?_⟩
    intro e he f hf
    rcases List.mem_cons.1 he with rfl | he
    · exact ⟨kN f (hA.gets hf), kP f (hB.gets hf)⟩
    · exact c3 e he f hf

theorem allocBond_inv [Zero α] {b : Nat} {s : Step} {ids : List Nat} {m : Option BlockMap}
    {w w' : World α} {st st' : State} {S : Family}
    (hI : WInv w S) (hS : S b s = some st)
    (hloc : ∀ f ∈ ids, isGlobalSpec w.fm f = .ok false)
    (h : allocBond w st ids m = .ok (w', st')) :
    WInv w' (upd S b s st') ∧ Frame w w' ∧ w'.allGlobalFieldIds = w.allGlobalFieldIds ∧
      w'.globalData = w.globalData ∧
      (∀ f, (st.ref f).isSome → (st'.ref f).isSome) ∧ (∀ f ∈ ids, (st'.ref f).isSome) := by
  unfold allocBond at h
  split_ifs at h with hi
  · cases h
    have : upd S b s st = S := by
      funext b' s'
      unfold upd
      split_ifs with hh
      · rw [hh.1, hh.2, hS]
      · rfl
    rw [this]
    exact ⟨hI, Frame.refl _, rfl, rfl, fun _ h => h, by simp [hi]⟩
  · have hA := allocateBondData_spec h
    obtain ⟨i1, f1, g1, d1⟩ := alloc_step hI hS hA hloc
    exact ⟨i1, f1, g1, d1, fun f hf => hA.keeps hf, fun f hf => hA.gets hf⟩

/-! ### Global data -/

theorem allocGlobalNone_inv [Zero α] {w : World α} {S : Family} (hI : WInv w S) (v : Bool) {f : Nat}
    (hno : ∀ s, w.globalData.lookup (f, s) = none) (hg : isGlobalSpec w.fm f = .ok true)
    (hmem : f ∈ w.allGlobalFieldIds) :
    WInv (allocGlobalNone v w f) S ∧ Frame w (allocGlobalNone v w f) ∧
      (allocGlobalNone v w f).allGlobalFieldIds = w.allGlobalFieldIds ∧
      (∀ k, (allocGlobalNone v w f).globalData.lookup k =
        if k = (f, Step.none) then some w.next else w.globalData.lookup k) := by
  set w' := allocGlobalNone v w f with hw'
  have e1 : w'.fm = w.fm := by rw [hw']; unfold allocGlobalNone newColumns; cases v <;> rfl
  have e2 : w'.globalData = ((f, Step.none), w.next) :: w.globalData := by
    rw [hw']; unfold allocGlobalNone newColumns; cases v <;> rfl
  have e3 : w'.allGlobalFieldIds = w.allGlobalFieldIds := by
    rw [hw']; unfold allocGlobalNone newColumns; cases v <;> rfl
  have e4 : w'.scalarN = w.scalarN := by rw [hw']; unfold allocGlobalNone newColumns; cases v <;> rfl
  have e5 : w'.scalarNP1 = w.scalarNP1 := by
    rw [hw']; unfold allocGlobalNone newColumns; cases v <;> rfl
  have e6 : w'.vectorN = w.vectorN := by rw [hw']; unfold allocGlobalNone newColumns; cases v <;> rfl
  have e7 : w'.vectorNP1 = w.vectorNP1 := by
    rw [hw']; unfold allocGlobalNone newColumns; cases v <;> rfl
  have e8 : w'.next = w.next + 1 := by rw [hw']; unfold allocGlobalNone newColumns; cases v <;> rfl
  have e9 : ∀ r, r < w.next → w'.heap r = w.heap r := by
    intro r hr
    rw [hw']; unfold allocGlobalNone newColumns
    cases v <;> simp <;> omega
  have hl : ∀ k, w'.globalData.lookup k =
      if k = (f, Step.none) then some w.next else w.globalData.lookup k := by
    intro k; rw [e2, lookup_cons']
  have ha : ∀ k r, addr w' S k = some r →
      (addr w S k = some r) ∨ (k = .glob f .none ∧ r = w.next) := by
    intro k r hk
    cases k with
    | loc b s g => left; exact hk
    | glob g t =>
      simp only [addr] at hk ⊢
      rw [hl] at hk
      split_ifs at hk with hh
      · cases hh; right; exact ⟨rfl, (Option.some.inj hk).symm⟩
      · left; exact hk
  have hpair : ∀ k ns ps, PairOK k w ns ps → PairOK k w' ns ps := by
    intro k ns ps hP
    refine List.Forall₂.imp ?_ hP
    rintro n p ⟨g, h1, h2, h3, h4, h5⟩
    have hn : n < w.next := hI.bound (.glob g .n) n h1
    have hp : p < w.next := hI.bound (.glob g .np1) p h2
    refine ⟨g, by rw [hl, if_neg (by simp)]; exact h1, by rw [hl, if_neg (by simp)]; exact h2,
      ?_, ?_, ?_⟩
    · rw [e9 n hn, e9 p hp]; exact h3
    · rw [e9 n hn]; exact h4
    · rw [e9 p hp]; exact h5
  refine ⟨⟨?_, ?_, ?_, hI.agree, ?_, ?_, ?_, ?_, ?_, ?_⟩, ⟨e1, by omega, e9, ?_⟩, e3, hl⟩
  · rw [e1]; exact hI.rep
  · intro k₁ k₂ r h1 h2
    rcases ha k₁ r h1 with a1 | ⟨rfl, hr⟩ <;> rcases ha k₂ r h2 with a2 | ⟨rfl, h⟩
    · exact hI.inj k₁ k₂ r a1 a2
    · have := hI.bound k₁ r a1; omega
    · have := hI.bound k₂ _ a2; omega
    · rfl
  · intro k r hk
    rcases ha k r hk with a | ⟨_, rfl⟩
    · have := hI.bound k r a; omega
    · omega
  · intro b s g r hk
    rw [e1]
    exact hI.locNot b s g r hk
  · intro g t r hk
    rw [e1, e3]
    rcases ha _ r hk with a | ⟨h, _⟩
    · exact hI.globIs g t r a
    · cases h; exact ⟨hg, hmem⟩
  · rw [e4, e5]; exact hpair _ _ _ hI.pairS
  · rw [e6, e7]; exact hpair _ _ _ hI.pairV
  · intro g r hk
    rw [e4, e6]
    rcases ha _ r hk with a | ⟨h, _⟩
    · exact hI.covered g r a
    · cases h
  · intro g r hk
    rw [e5, e7]
    rcases ha _ r hk with a | ⟨h, _⟩
    · exact hI.covered' g r a
    · cases h
  · intro k r hk
    rw [hl]
    split_ifs with hh
    · rw [hh, hno] at hk; cases hk
    · exact hk

theorem allocGlobalTwo_inv [Zero α] {w : World α} {S : Family} (hI : WInv w S) (v : Bool) {f : Nat}
    (hno : ∀ s, w.globalData.lookup (f, s) = none) (hg : isGlobalSpec w.fm f = .ok true)
    (hmem : f ∈ w.allGlobalFieldIds) :
    WInv (allocGlobalTwo v w f) S ∧ Frame w (allocGlobalTwo v w f) ∧
      (allocGlobalTwo v w f).allGlobalFieldIds = w.allGlobalFieldIds ∧
      (∀ k, (allocGlobalTwo v w f).globalData.lookup k =
        if k = (f, Step.np1) then some (w.next + 1)
        else if k = (f, Step.n) then some w.next else w.globalData.lookup k) := by
  set w' := allocGlobalTwo v w f with hw'
  have e1 : w'.fm = w.fm := by rw [hw']; unfold allocGlobalTwo newColumns; cases v <;> rfl
  have e2 : w'.globalData = ((f, Step.np1), w.next + 1) :: ((f, Step.n), w.next) :: w.globalData := by
    rw [hw']; unfold allocGlobalTwo newColumns; cases v <;> rfl
  have e3 : w'.allGlobalFieldIds = w.allGlobalFieldIds := by
    rw [hw']; unfold allocGlobalTwo newColumns; cases v <;> rfl
  have e8 : w'.next = w.next + 2 := by rw [hw']; unfold allocGlobalTwo newColumns; cases v <;> rfl
  have e9 : ∀ r, r < w.next → w'.heap r = w.heap r := by
    intro r hr
    rw [hw']; unfold allocGlobalTwo newColumns
    cases v <;> simp <;> omega
  have e10 : ∀ r, r = w.next ∨ r = w.next + 1 →
      w'.heap r = Vec.zeros (BlockMap.const [0] (if v then 3 else 1)) := by
    intro r hr
    rw [hw']; unfold allocGlobalTwo newColumns
    cases v <;> simp <;> omega
  have hl : ∀ k, w'.globalData.lookup k =
      if k = (f, Step.np1) then some (w.next + 1)
        else if k = (f, Step.n) then some w.next else w.globalData.lookup k := by
    intro k; rw [e2, lookup_cons', lookup_cons']
  have ha : ∀ k r, addr w' S k = some r →
      (addr w S k = some r) ∨ (k = .glob f .np1 ∧ r = w.next + 1) ∨ (k = .glob f .n ∧ r = w.next) := by
    intro k r hk
    cases k with
    | loc b s g => left; exact hk
    | glob g t =>
      simp only [addr] at hk ⊢
      rw [hl] at hk
      split_ifs at hk with hh hh'
      · cases hh; right; left; exact ⟨rfl, (Option.some.inj hk).symm⟩
      · cases hh'; right; right; exact ⟨rfl, (Option.some.inj hk).symm⟩
      · left; exact hk
  have hlook : ∀ k r, w.globalData.lookup k = some r → w'.globalData.lookup k = some r := by
    intro k r hk
    rw [hl]
    split_ifs with hh hh'
    · rw [hh, hno] at hk; cases hk
    · rw [hh', hno] at hk; cases hk
    · exact hk
  have hpair : ∀ k ns ps, PairOK k w ns ps → PairOK k w' ns ps := by
    intro k ns ps hP
    refine List.Forall₂.imp ?_ hP
    rintro n p ⟨g, h1, h2, h3, h4, h5⟩
    have hn : n < w.next := hI.bound (.glob g .n) n h1
    have hp : p < w.next := hI.bound (.glob g .np1) p h2
    refine ⟨g, hlook _ _ h1, hlook _ _ h2, ?_, ?_, ?_⟩
    · rw [e9 n hn, e9 p hp]; exact h3
    · rw [e9 n hn]; exact h4
    · rw [e9 p hp]; exact h5
  have hnew : ∀ k, k = (if v then 3 else 1) → PairOK k w' [w.next] [w.next + 1] := by
    intro k hk
    refine List.Forall₂.cons ⟨f, ?_, ?_, ?_, ?_, ?_⟩ List.Forall₂.nil
    · rw [hl, if_neg (by simp), if_pos rfl]
    · rw [hl, if_pos rfl]
    · rw [e10 _ (Or.inl rfl), e10 _ (Or.inr rfl)]
    · rw [e10 _ (Or.inl rfl), hk]; cases v <;> rfl
    · rw [e10 _ (Or.inr rfl), hk]; cases v <;> rfl
  have hS : PairOK 1 w' w'.scalarN w'.scalarNP1 ∧ PairOK 3 w' w'.vectorN w'.vectorNP1 ∧
      (∀ r, r ∈ w.scalarN ∨ r ∈ w.vectorN ∨ r = w.next → r ∈ w'.scalarN ∨ r ∈ w'.vectorN) ∧
      (∀ r, r ∈ w.scalarNP1 ∨ r ∈ w.vectorNP1 ∨ r = w.next + 1 →
        r ∈ w'.scalarNP1 ∨ r ∈ w'.vectorNP1) := by
    cases v with
    | true =>
      have a1 : w'.scalarN = w.scalarN := rfl
      have a2 : w'.scalarNP1 = w.scalarNP1 := rfl
      have a3 : w'.vectorN = w.vectorN ++ [w.next] := rfl
      have a4 : w'.vectorNP1 = w.vectorNP1 ++ [w.next + 1] := rfl
      rw [a1, a2, a3, a4]
      refine ⟨hpair _ _ _ hI.pairS, List.rel_append (hpair _ _ _ hI.pairV) (hnew 3 rfl), ?_, ?_⟩
      · intro r; simp
      · intro r; simp
    | false =>
      have a1 : w'.scalarN = w.scalarN ++ [w.next] := rfl
      have a2 : w'.scalarNP1 = w.scalarNP1 ++ [w.next + 1] := rfl
      have a3 : w'.vectorN = w.vectorN := rfl
      have a4 : w'.vectorNP1 = w.vectorNP1 := rfl
      rw [a1, a2, a3, a4]
      refine ⟨List.rel_append (hpair _ _ _ hI.pairS) (hnew 1 rfl), hpair _ _ _ hI.pairV, ?_, ?_⟩
      · intro r; simp; tauto
      · intro r; simp; tauto
  refine ⟨⟨?_, ?_, ?_, hI.agree, ?_, ?_, hS.1, hS.2.1, ?_, ?_⟩, ⟨e1, by omega, e9, hlook⟩, e3, hl⟩
  · rw [e1]; exact hI.rep
  · intro k₁ k₂ r h1 h2
    rcases ha k₁ r h1 with a1 | ⟨rfl, hr⟩ | ⟨rfl, hr⟩ <;>
      rcases ha k₂ r h2 with a2 | ⟨rfl, hr'⟩ | ⟨rfl, hr'⟩
    · exact hI.inj k₁ k₂ r a1 a2
    · have := hI.bound k₁ r a1; omega
    · have := hI.bound k₁ r a1; omega
    · have := hI.bound k₂ _ a2; omega
    · rfl
    · omega
    · have := hI.bound k₂ _ a2; omega
    · omega
    · rfl
  · intro k r hk
    rcases ha k r hk with a | ⟨_, rfl⟩ | ⟨_, rfl⟩
    · have := hI.bound k r a; omega
    · omega
    · omega
  · intro b s g r hk
    rw [e1]
    exact hI.locNot b s g r hk
  · intro g t r hk
    rw [e1, e3]
    rcases ha _ r hk with a | ⟨h, _⟩ | ⟨h, _⟩
    · exact hI.globIs g t r a
    · cases h; exact ⟨hg, hmem⟩
    · cases h; exact ⟨hg, hmem⟩
  · intro g r hk
    rcases ha _ r hk with a | ⟨h, _⟩ | ⟨_, h⟩
    · rcases hI.covered g r a with h | h
      · exact hS.2.2.1 r (Or.inl h)
      · exact hS.2.2.1 r (Or.inr (Or.inl h))
    · cases h
    · exact hS.2.2.1 r (Or.inr (Or.inr h))
  · intro g r hk
    rcases ha _ r hk with a | ⟨_, h⟩ | ⟨h, _⟩
    · rcases hI.covered' g r a with h | h
      · exact hS.2.2.2 r (Or.inl h)
      · exact hS.2.2.2 r (Or.inr (Or.inl h))
    · exact hS.2.2.2 r (Or.inr (Or.inr h))
    · cases h

/-- A global allocation function with the common specification of the two above. -/
def GlobalAlloc (g : World α → Nat → World α) (steps : List Step) : Prop :=
  ∀ {w : World α} {S : Family} {f : Nat}, WInv w S → (∀ s, w.globalData.lookup (f, s) = none) →
    isGlobalSpec w.fm f = .ok true → f ∈ w.allGlobalFieldIds →
    WInv (g w f) S ∧ Frame w (g w f) ∧ (g w f).allGlobalFieldIds = w.allGlobalFieldIds ∧
      (∀ k : Nat × Step, k.1 ≠ f → (g w f).globalData.lookup k = w.globalData.lookup k) ∧
      (∀ s ∈ steps, ((g w f).globalData.lookup (f, s)).isSome)

theorem globalAlloc_none [Zero α] (v : Bool) :
    GlobalAlloc (α := α) (allocGlobalNone v) [Step.none] := by
  intro w S f hI hno hg hmem
  obtain ⟨a, b, c, d⟩ := allocGlobalNone_inv hI v hno hg hmem
  refine ⟨a, b, c, ?_, ?_⟩
  · intro k hk
    rw [d, if_neg (by rintro rfl; exact hk rfl)]
  · intro s hs
    simp at hs
    subst hs
    rw [d]; simp

theorem globalAlloc_two [Zero α] (v : Bool) :
    GlobalAlloc (α := α) (allocGlobalTwo v) [Step.n, Step.np1] := by
  intro w S f hI hno hg hmem
  obtain ⟨a, b, c, d⟩ := allocGlobalTwo_inv hI v hno hg hmem
  refine ⟨a, b, c, ?_, ?_⟩
  · intro k hk
    rw [d, if_neg (by rintro rfl; exact hk rfl), if_neg (by rintro rfl; exact hk rfl)]
  · intro s hs
    simp at hs
    rcases hs with rfl | rfl <;> rw [d] <;> simp

theorem foldl_global {g : World α → Nat → World α} {steps : List Step} (hg : GlobalAlloc g steps)
    (fs : List Nat) {w : World α} {S : Family} (hI : WInv w S) (hn : fs.Nodup)
    (hno : ∀ f ∈ fs, ∀ s, w.globalData.lookup (f, s) = none)
    (hgl : ∀ f ∈ fs, isGlobalSpec w.fm f = .ok true) (hmem : ∀ f ∈ fs, f ∈ w.allGlobalFieldIds) :
    WInv (fs.foldl g w) S ∧ Frame w (fs.foldl g w) ∧
      (fs.foldl g w).allGlobalFieldIds = w.allGlobalFieldIds ∧
      (∀ k : Nat × Step, k.1 ∉ fs → (fs.foldl g w).globalData.lookup k = w.globalData.lookup k) ∧
      (∀ f ∈ fs, ∀ s ∈ steps, ((fs.foldl g w).globalData.lookup (f, s)).isSome) := by
  induction fs generalizing w with
  | nil => exact ⟨hI, Frame.refl _, rfl, fun _ _ => rfl, by simp⟩
  | cons f fs ih =>
    rw [List.nodup_cons] at hn
    obtain ⟨i1, f1, g1, d1, c1⟩ := hg hI (hno f (by simp)) (hgl f (by simp)) (hmem f (by simp))
    obtain ⟨i2, f2, g2, d2, c2⟩ := ih (w := g w f) i1 hn.2
      (fun f' hf' s => by
        rw [d1 _ (by rintro rfl; exact hn.1 hf')]
        exact hno f' (List.mem_cons_of_mem _ hf') s)
      (fun f' hf' => by rw [f1.fm]; exact hgl f' (List.mem_cons_of_mem _ hf'))
      (fun f' hf' => by rw [g1]; exact hmem f' (List.mem_cons_of_mem _ hf'))
    refine ⟨i2, f1.trans f2, g2.trans g1, ?_, ?_⟩
    · intro k hk
      rw [List.mem_cons, not_or] at hk
      rw [List.foldl_cons, d2 k hk.2, d1 k hk.1]
    · intro f' hf' s hs
      rcases List.mem_cons.1 hf' with rfl | hf'
      · obtain ⟨r, hr⟩ := Option.isSome_iff_exists.1 (c1 s hs)
        rw [List.foldl_cons, f2.look _ r hr]; rfl
      · exact c2 f' hf' s hs

end Verif.Data
