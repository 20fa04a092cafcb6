import Verif.Data.Alloc

/-! Helper lemmas: the invariant of all reachable systems and its preservation. -/

namespace Verif.Data

open Verif Verif.Field

variable {α : Type}

/-- What a vector object belongs to: a field of one state of one data manager, or a global field at
one step. -/
inductive Key where
  | loc (b : Nat) (s : Step) (f : Nat)
  | glob (f : Nat) (s : Step)

/-- A family of states indexed by data manager and step. -/
abbrev Family := Nat → Step → Option State

def addr (w : World α) (S : Family) : Key → Option Ref
  | .loc b s f => (S b s).bind (fun st => st.ref f)
  | .glob f s => w.globalData.lookup (f, s)

/-- The lists of global vectors pair the two steps of the same field. -/
def PairOK (k : Nat) (w : World α) (ns ps : List Ref) : Prop :=
  List.Forall₂ (fun n p => ∃ f, w.globalData.lookup (f, Step.n) = some n ∧
    w.globalData.lookup (f, Step.np1) = some p ∧
    (w.heap n).map = (w.heap p).map ∧
    (w.heap n).vals.length = k ∧ (w.heap p).vals.length = k) ns ps

structure WInv (w : World α) (S : Family) : Prop where
  rep : ∃ ds, Rep w.fm ds
  inj : ∀ k₁ k₂ r, addr w S k₁ = some r → addr w S k₂ = some r → k₁ = k₂
  bound : ∀ k r, addr w S k = some r → r < w.next
  agree : ∀ b s st, S b s = some st → ∀ f, st.dataMap.lookup f = st.ref f
  locNot : ∀ b s f r, addr w S (.loc b s f) = some r → isGlobalSpec w.fm f = .ok false
  globIs : ∀ f s r, addr w S (.glob f s) = some r →
    isGlobalSpec w.fm f = .ok true ∧ f ∈ w.allGlobalFieldIds
  pairS : PairOK 1 w w.scalarN w.scalarNP1
  pairV : PairOK 3 w w.vectorN w.vectorNP1
  covered : ∀ f r, addr w S (.glob f .n) = some r → r ∈ w.scalarN ∨ r ∈ w.vectorN
  covered' : ∀ f r, addr w S (.glob f .np1) = some r → r ∈ w.scalarNP1 ∨ r ∈ w.vectorNP1

/-! ### Shifting the global data -/

theorem copyEntries_one {w : World α} {src dst : Ref}
    (hm : (w.heap dst).map = (w.heap src).map)
    (h1 : (w.heap dst).vals.length = 1) (h2 : (w.heap src).vals.length = 1) :
    w.copyEntries src dst [0] =
      .ok { w with heap := fun r => if r = dst then w.heap src else w.heap r } := by
  obtain ⟨a, ha⟩ := List.length_eq_one_iff.1 h1
  obtain ⟨b, hb⟩ := List.length_eq_one_iff.1 h2
  have e : w.heap src = ⟨(w.heap dst).map, [b]⟩ := by rw [hm, ← hb]
  simp [World.copyEntries, World.copyEntry, World.setEntry, Vec.getEntry, Vec.setEntry, ha, e]

theorem copyEntries_three {w : World α} {src dst : Ref} (hne : src ≠ dst)
    (hm : (w.heap dst).map = (w.heap src).map)
    (h1 : (w.heap dst).vals.length = 3) (h2 : (w.heap src).vals.length = 3) :
    w.copyEntries src dst [0, 1, 2] =
      .ok { w with heap := fun r => if r = dst then w.heap src else w.heap r } := by
  obtain ⟨a, a', a'', ha⟩ := List.length_eq_three.1 h1
  obtain ⟨b, b', b'', hb⟩ := List.length_eq_three.1 h2
  have e : w.heap src = ⟨(w.heap dst).map, [b, b', b'']⟩ := by rw [hm, ← hb]
  simp [World.copyEntries, World.copyEntry, World.setEntry, Vec.getEntry, Vec.setEntry, ha, e, hne]
  funext r
  split_ifs <;> rfl

/-- Entry lists for which copying entry by entry copies the whole vector. -/
def CompsOK (comps : List Nat) (k : Nat) : Prop :=
  ∀ {α : Type} {w : World α} {src dst : Ref}, src ≠ dst → (w.heap dst).map = (w.heap src).map →
    (w.heap dst).vals.length = k → (w.heap src).vals.length = k →
    w.copyEntries src dst comps =
      .ok { w with heap := fun r => if r = dst then w.heap src else w.heap r }

theorem compsOK_one : CompsOK [0] 1 := fun _ hm h1 h2 => copyEntries_one hm h1 h2
theorem compsOK_three : CompsOK [0, 1, 2] 3 := fun hne hm h1 h2 => copyEntries_three hne hm h1 h2

theorem shiftGlobals_spec {comps : List Nat} {k : Nat} (hc : CompsOK comps k) (ns ps : List Ref)
    (w : World α)
    (hp : List.Forall₂ (fun n p => (w.heap n).map = (w.heap p).map ∧
      (w.heap n).vals.length = k ∧ (w.heap p).vals.length = k) ns ps)
    (hd : ∀ n ∈ ns, n ∉ ps)
    (hf : ∀ n p p', (n, p) ∈ ns.zip ps → (n, p') ∈ ns.zip ps → p = p') :
    ∃ h, w.shiftGlobals comps ns ps = .ok { w with heap := h } ∧
      (∀ r, r ∉ ns → h r = w.heap r) ∧ (∀ n p, (n, p) ∈ ns.zip ps → h n = w.heap p) := by
  induction ns generalizing ps w with
  | nil => exact ⟨w.heap, rfl, fun _ _ => rfl, by simp⟩
  | cons n ns ih =>
    cases ps with
    | nil => cases hp
    | cons p ps =>
      rw [List.forall₂_cons] at hp
      obtain ⟨⟨hm, hl1, hl2⟩, hp⟩ := hp
      have hne : p ≠ n := by
        rintro rfl; exact hd p (by simp) (by simp)
      have hnps : n ∉ ps := fun h => hd n (by simp) (by simp [h])
      set w' : World α := { w with heap := fun r => if r = n then w.heap p else w.heap r } with hw'
      have hcopy : w.copyEntries p n comps = .ok w' := hc hne hm hl1 hl2
      have hp' : List.Forall₂ (fun n p => (w'.heap n).map = (w'.heap p).map ∧
          (w'.heap n).vals.length = k ∧ (w'.heap p).vals.length = k) ns ps := by
        rw [List.forall₂_iff_zip] at hp ⊢
        refine ⟨hp.1, ?_⟩
        intro a b hab
        obtain ⟨h1, h2, h3⟩ := hp.2 hab
        have hb : b ≠ n := by
          rintro rfl; exact hnps (List.of_mem_zip hab).2
        have eb : w'.heap b = w.heap b := by simp [hw', hb]
        by_cases ha : a = n
        · subst ha
          have : b = p := hf a b p (by simp [hab]) (by simp)
          subst this
          have ea : w'.heap a = w.heap b := by simp [hw']
          rw [ea, eb]
          exact ⟨rfl, hl2, hl2⟩
        · have ea : w'.heap a = w.heap a := by simp [hw', ha]
          rw [ea, eb]
          exact ⟨h1, h2, h3⟩
      obtain ⟨h, hs, h1, h2⟩ := ih ps w' hp'
        (fun m hm hmp => hd m (List.mem_cons_of_mem _ hm) (List.mem_cons_of_mem _ hmp))
        (fun a b c hab hac => hf a b c (by simp [hab]) (by simp [hac]))
      refine ⟨h, ?_, ?_, ?_⟩
      · simp only [World.shiftGlobals, hcopy]
        rw [hs]
      · intro r hr
        rw [List.mem_cons, not_or] at hr
        rw [h1 r hr.2]
        simp [hw', hr.1]
      · intro a b hab
        rw [List.zip_cons_cons, List.mem_cons] at hab
        rcases hab with hab | hab
        · simp only [Prod.mk.injEq] at hab
          obtain ⟨rfl, rfl⟩ := hab
          by_cases ha : a ∈ ns
          · obtain ⟨i, hi, he⟩ := List.getElem_of_mem ha
            have hi' : i < ps.length := by rw [← hp.length_eq]; exact hi
            have hz : (a, ps[i]) ∈ ns.zip ps := by
              have : (ns.zip ps)[i]'(by simp; omega) = (a, ps[i]) := by
                rw [List.getElem_zip, he]
              rw [← this]; exact List.getElem_mem _
            have hb : ps[i] = b := hf a _ _ (by simp [hz]) (by simp)
            rw [h2 a _ hz, hb]
            simp [hw', hne]
          · rw [h1 a ha]; simp [hw']
        · rw [h2 a b hab]
          have hb : b ≠ n := by
            rintro rfl; exact hnps (List.of_mem_zip hab).2
          simp [hw', hb]

theorem PairOK.forall {k : Nat} {w : World α} {ns ps : List Ref} (h : PairOK k w ns ps) :
    List.Forall₂ (fun n p => (w.heap n).map = (w.heap p).map ∧
      (w.heap n).vals.length = k ∧ (w.heap p).vals.length = k) ns ps :=
  List.Forall₂.imp (fun _ _ ⟨_, _, _, h⟩ => h) h

theorem PairOK.zip {k : Nat} {w : World α} {ns ps : List Ref} (h : PairOK k w ns ps) {n p : Ref}
    (hz : (n, p) ∈ ns.zip ps) : ∃ f, w.globalData.lookup (f, Step.n) = some n ∧
    w.globalData.lookup (f, Step.np1) = some p := by
  obtain ⟨f, h1, h2, -⟩ := (List.forall₂_iff_zip.1 h).2 hz
  exact ⟨f, h1, h2⟩

theorem PairOK.left {k : Nat} {w : World α} {ns ps : List Ref} (h : PairOK k w ns ps) {n : Ref}
    (hn : n ∈ ns) : ∃ f, w.globalData.lookup (f, Step.n) = some n := by
  obtain ⟨i, hi, rfl⟩ := List.getElem_of_mem hn
  have hl := List.Forall₂.length_eq h
  have hi' : i < ps.length := by omega
  have hz : (ns[i], ps[i]) ∈ ns.zip ps := by
    have : (ns.zip ps)[i]'(by simp; omega) = (ns[i], ps[i]) := by rw [List.getElem_zip]
    rw [← this]; exact List.getElem_mem _
  obtain ⟨f, h1, -⟩ := h.zip hz
  exact ⟨f, h1⟩

theorem PairOK.right {k : Nat} {w : World α} {ns ps : List Ref} (h : PairOK k w ns ps) {p : Ref}
    (hp : p ∈ ps) : ∃ f, w.globalData.lookup (f, Step.np1) = some p := by
  obtain ⟨i, hi, rfl⟩ := List.getElem_of_mem hp
  have hl := List.Forall₂.length_eq h
  have hi' : i < ns.length := by omega
  have hz : (ns[i], ps[i]) ∈ ns.zip ps := by
    have : (ns.zip ps)[i]'(by simp; omega) = (ns[i], ps[i]) := by rw [List.getElem_zip]
    rw [← this]; exact List.getElem_mem _
  obtain ⟨f, -, h1⟩ := h.zip hz
  exact ⟨f, h1⟩

theorem WInv.np1_not_n {w : World α} {S : Family} (hI : WInv w S) {f g : Nat} {r : Ref}
    (h1 : w.globalData.lookup (f, Step.n) = some r)
    (h2 : w.globalData.lookup (g, Step.np1) = some r) : False := by
  have := hI.inj (.glob f .n) (.glob g .np1) r h1 h2
  simp at this

/-- The invariant only looks at the heap through the sizes and maps of the vectors. -/
theorem WInv.of_heap {w : World α} {S : Family} (hI : WInv w S) (h : Ref → Vec α)
    (hm : ∀ r, (h r).map = (w.heap r).map) (hl : ∀ r, (h r).vals.length = (w.heap r).vals.length) :
    WInv { w with heap := h } S := by
  have hp : ∀ k ns ps, PairOK k w ns ps → PairOK k { w with heap := h } ns ps := by
    intro k ns ps hP
    refine List.Forall₂.imp ?_ hP
    rintro n p ⟨f, h1, h2, h3, h4, h5⟩
    exact ⟨f, h1, h2, by simp only [hm]; exact h3, by simp only [hl]; exact h4,
      by simp only [hl]; exact h5⟩
  exact ⟨hI.rep, hI.inj, hI.bound, hI.agree, hI.locNot, hI.globIs, hp _ _ _ hI.pairS,
    hp _ _ _ hI.pairV, hI.covered, hI.covered'⟩

/-- Effect of the two global loops of `updateState`. -/
theorem shift_spec {w : World α} {S : Family} (hI : WInv w S) (dm : DataManager) :
    ∃ h, updateState w dm =
        .ok ({ w with heap := h }, { dm with stateN := dm.stateNP1, stateNP1 := dm.stateN }) ∧
      (∀ r, (∀ f, w.globalData.lookup (f, Step.n) ≠ some r) → h r = w.heap r) ∧
      (∀ f n, w.globalData.lookup (f, Step.n) = some n →
        ∃ p, w.globalData.lookup (f, Step.np1) = some p ∧ h n = w.heap p) ∧
      WInv { w with heap := h } S := by
  have hdis : ∀ {k ns ps}, PairOK k w ns ps → ∀ {k' ns' ps'}, PairOK k' w ns' ps' →
      ∀ n ∈ ns, n ∉ ps' := by
    intro k ns ps hP k' ns' ps' hP' n hn hn'
    obtain ⟨f, hf⟩ := hP.left hn
    obtain ⟨g, hg⟩ := hP'.right hn'
    exact hI.np1_not_n hf hg
  have hfun : ∀ {k ns ps}, PairOK k w ns ps → ∀ n p p', (n, p) ∈ ns.zip ps → (n, p') ∈ ns.zip ps →
      p = p' := by
    intro k ns ps hP n p p' h1 h2
    obtain ⟨f, hf1, hf2⟩ := hP.zip h1
    obtain ⟨g, hg1, hg2⟩ := hP.zip h2
    have := hI.inj (.glob f .n) (.glob g .n) n hf1 hg1
    cases this
    rw [hf2] at hg2
    exact Option.some.inj hg2
  obtain ⟨h1, e1, u1, c1⟩ := shiftGlobals_spec compsOK_one w.scalarN w.scalarNP1 w
    hI.pairS.forall (hdis hI.pairS hI.pairS) (hfun hI.pairS)
  have hml1 : ∀ r, (h1 r).map = (w.heap r).map ∧ (h1 r).vals.length = (w.heap r).vals.length := by
    intro r
    by_cases hr : r ∈ w.scalarN
    · obtain ⟨i, hi, rfl⟩ := List.getElem_of_mem hr
      have hl := List.Forall₂.length_eq hI.pairS
      have hz : (w.scalarN[i], w.scalarNP1[i]) ∈ w.scalarN.zip w.scalarNP1 := by
        have : (w.scalarN.zip w.scalarNP1)[i]'(by simp; omega)
            = (w.scalarN[i], w.scalarNP1[i]) := by rw [List.getElem_zip]
        rw [← this]; exact List.getElem_mem _
      obtain ⟨a, b, c⟩ := (List.forall₂_iff_zip.1 hI.pairS.forall).2 hz
      rw [c1 _ _ hz]
      exact ⟨a.symm, by omega⟩
    · rw [u1 r hr]; exact ⟨rfl, rfl⟩
  have hI1 : WInv { w with heap := h1 } S := hI.of_heap h1 (fun r => (hml1 r).1) (fun r => (hml1 r).2)
  obtain ⟨h2, e2, u2, c2⟩ := shiftGlobals_spec compsOK_three w.vectorN w.vectorNP1
    { w with heap := h1 } hI1.pairV.forall (hdis hI.pairV hI.pairV) (hfun hI.pairV)
  have hml2 : ∀ r, (h2 r).map = (h1 r).map ∧ (h2 r).vals.length = (h1 r).vals.length := by
    intro r
    by_cases hr : r ∈ w.vectorN
    · obtain ⟨i, hi, rfl⟩ := List.getElem_of_mem hr
      have hl := List.Forall₂.length_eq hI.pairV
      have hz : (w.vectorN[i], w.vectorNP1[i]) ∈ w.vectorN.zip w.vectorNP1 := by
        have : (w.vectorN.zip w.vectorNP1)[i]'(by simp; omega)
            = (w.vectorN[i], w.vectorNP1[i]) := by rw [List.getElem_zip]
        rw [← this]; exact List.getElem_mem _
      obtain ⟨a, b, c⟩ := (List.forall₂_iff_zip.1 hI1.pairV.forall).2 hz
      rw [c2 _ _ hz]
      exact ⟨a.symm, by simp only at b c ⊢; omega⟩
    · rw [u2 r hr]; exact ⟨rfl, rfl⟩
  refine ⟨h2, ?_, ?_, ?_, ?_⟩
  · unfold updateState
    rw [e1]
    simp only
    rw [e2]
  · intro r hr
    have hs : r ∉ w.scalarN := fun h => by
      obtain ⟨f, hf⟩ := hI.pairS.left h; exact hr f hf
    have hv : r ∉ w.vectorN := fun h => by
      obtain ⟨f, hf⟩ := hI.pairV.left h; exact hr f hf
    rw [u2 r hv]
    exact u1 r hs
  · intro f n hn
    have key : ∀ {k ns ps}, PairOK k w ns ps → n ∈ ns →
        ∃ p, (n, p) ∈ ns.zip ps ∧ w.globalData.lookup (f, Step.np1) = some p := by
      intro k ns ps hP hmem
      obtain ⟨i, hi, he⟩ := List.getElem_of_mem hmem
      have hl := List.Forall₂.length_eq hP
      have hz : (n, ps[i]'(by omega)) ∈ ns.zip ps := by
        have : (ns.zip ps)[i]'(by simp; omega) = (n, ps[i]'(by omega)) := by
          rw [List.getElem_zip, he]
        rw [← this]; exact List.getElem_mem _
      obtain ⟨g, hg1, hg2⟩ := hP.zip hz
      have := hI.inj (.glob f .n) (.glob g .n) n hn hg1
      cases this
      exact ⟨_, hz, hg2⟩
    rcases hI.covered f n hn with hmem | hmem
    · obtain ⟨p, hz, hp⟩ := key hI.pairS hmem
      refine ⟨p, hp, ?_⟩
      have : n ∉ w.vectorN := by
        intro hv
        obtain ⟨q, hzq, hq⟩ := key hI.pairV hv
        have e1 := (List.forall₂_iff_zip.1 hI.pairV.forall).2 hzq
        have e2 := (List.forall₂_iff_zip.1 hI.pairS.forall).2 hz
        omega
      rw [u2 n this]
      exact c1 n p hz
    · obtain ⟨p, hz, hp⟩ := key hI.pairV hmem
      refine ⟨p, hp, ?_⟩
      rw [c2 n p hz]
      have : p ∉ w.scalarN := by
        intro hs
        obtain ⟨g, hg⟩ := hI.pairS.left hs
        exact hI.np1_not_n hg hp
      exact u1 p this
  · exact hI1.of_heap h2 (fun r => (hml2 r).1) (fun r => (hml2 r).2)

end Verif.Data
