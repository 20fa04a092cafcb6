import Verif.Data.SysInv

/-! # Properties C03 - C06

`Reachable sys` ranges over every system that any sequence of registrations, data manager creations,
writes and state updates can produce. -/

namespace Verif.Data

open Verif Verif.Field

variable {α : Type}

/-! ## Vocabulary of the statements -/

/-- The registry classifies field `f` as a global quantity. -/
def IsGlobal (sys : System α) (f : Nat) : Prop :=
  ∃ spec, Field.getFieldSpec sys.world.fm f = .ok spec ∧ spec.relation = Relation.global

/-- The command writes the data that manager `b` delivers for field `f` at step `s`. -/
def Writes (sys : System α) (c : Cmd α) (b f : Nat) (s : Step) : Prop :=
  ∃ b' i x, c = .write b' f s i x ∧ (b' = b ∨ IsGlobal sys f)

/-! ## Helpers -/

theorem isGlobal_iff {sys : System α} (hI : SysInv sys) {f : Nat} :
    IsGlobal sys f ↔ isGlobalSpec sys.world.fm f = .ok true := by
  obtain ⟨ds, hR⟩ := hI.inv.rep
  constructor
  · rintro ⟨spec, h1, h2⟩
    rw [isGlobal_of_spec hR h1, h2]; rfl
  · intro h
    have hlt : f < sys.world.fm.fieldSpecs.length := by
      unfold isGlobalSpec at h
      split at h
      · rename_i b hb
        have := (List.getElem?_eq_some_iff.1 hb).1
        rw [hR.globals] at this
        rw [hR.specs]
        simpa using this
      · cases h
    have hs : Field.getFieldSpec sys.world.fm f = .ok (sys.world.fm.fieldSpecs[f]) := by
      unfold Field.getFieldSpec
      rw [dif_neg (by omega)]
    refine ⟨_, hs, ?_⟩
    have := isGlobal_of_spec hR hs
    rw [h] at this
    have := Outcome.ok.inj this
    simpa using this.symm

theorem not_isGlobal {sys : System α} (hI : SysInv sys) {f : Nat}
    (h : isGlobalSpec sys.world.fm f = .ok false) : ¬ IsGlobal sys f := by
  rw [isGlobal_iff hI, h]; simp

/-- Effect of one write on every slot. -/
theorem write_effect [Zero α] {sys s1 : System α} (hI : SysInv sys) {b f i : Nat} {s : Step} {x : α}
    (h : exec sys (.write b f s i x) = .ok s1) :
    (∃ v, sys.read b f s = .ok v ∧ i < v.vals.length ∧
      s1.read b f s = .ok ⟨v.map, v.vals.set i x⟩) ∧
    (∀ b' f' s', ¬ (f' = f ∧ s' = s ∧ (b' = b ∨ IsGlobal sys f)) →
      s1.read b' f' s' = sys.read b' f' s') := by
  simp only [exec] at h
  split at h <;> try cases h
  rename_i dm hdm
  split at h <;> try cases h
  rename_i r hr
  split at h <;> try cases h
  rename_i w' hw
  obtain ⟨hi, rfl⟩ := setEntry_spec hw
  constructor
  · refine ⟨sys.world.heap r, read_ok.2 ⟨dm, r, hdm, hr, rfl⟩, hi, ?_⟩
    exact read_ok.2 ⟨dm, r, hdm, hr, by simp⟩
  · intro b' f' s' hne
    unfold System.read
    cases hb' : sys.dms[b']? with
    | none => rfl
    | some dm' =>
      simp only
      have e : getData { sys.world with heap := (fun r' =>
          if r' = r then (⟨(sys.world.heap r).map, (sys.world.heap r).vals.set i x⟩ : Vec α)
          else sys.world.heap r') } dm' f' s' = getData sys.world dm' f' s' := rfl
      rw [e]
      cases hg : getData sys.world dm' f' s' with
      | fail e => rfl
      | ub => rfl
      | ok r' =>
        simp only
        have : r' ≠ r := by
          rintro rfl
          rcases getData_key hdm hr with ⟨g1, a1⟩ | ⟨g1, a1⟩ <;>
            rcases getData_key hb' hg with ⟨g2, a2⟩ | ⟨g2, a2⟩
          · have := hI.inv.inj _ _ _ a1 a2
            cases this
            exact hne ⟨rfl, rfl, Or.inr ((isGlobal_iff hI).2 g1)⟩
          · cases hI.inv.inj _ _ _ a1 a2
          · cases hI.inv.inj _ _ _ a1 a2
          · have := hI.inv.inj _ _ _ a1 a2
            cases this
            exact hne ⟨rfl, rfl, Or.inl rfl⟩
        rw [if_neg this]

/-- Effect of one state update on every readable slot. -/
theorem update_effect [Zero α] {sys s1 : System α} (hI : SysInv sys) {b : Nat}
    (h : exec sys (.update b) = .ok s1) :
    (∀ b' f s v, ¬ IsGlobal sys f → sys.read b' f s = .ok v →
      s1.read b' f (if b' = b then swapStep s else s) = .ok v) ∧
    (∀ b' f s v, IsGlobal sys f → s ≠ .n → sys.read b' f s = .ok v → s1.read b' f s = .ok v) ∧
    (∀ b' f v, IsGlobal sys f → sys.read b' f .np1 = .ok v → s1.read b' f .n = .ok v) := by
  have hI1 := exec_inv hI h
  simp only [exec] at h
  split at h <;> try cases h
  rename_i dm hdm
  split at h <;> try cases h
  rename_i w' dm' hu
  obtain ⟨hp, he, h1, h2, hi⟩ := shift_spec hI.inv dm
  rw [he] at hu
  cases hu
  have hlt := (List.getElem?_eq_some_iff.1 hdm).1
  -- managers after the update
  have hmgr : ∀ (b' : Nat) (dmb : DataManager), sys.dms[b']? = some dmb → ∃ dmb',
      (sys.dms.set b { dm with stateN := dm.stateNP1, stateNP1 := dm.stateN })[b']? = some dmb' := by
    intro b' dmb hb'
    by_cases hbb : b' = b
    · subst hbb; exact ⟨_, List.getElem?_set_self hlt⟩
    · exact ⟨dmb, by rw [List.getElem?_set_ne (fun e => hbb e.symm)]; exact hb'⟩
  have hnot : ∀ {k r}, addr sys.world (fam sys) k = some r → (∀ f, k ≠ .glob f .n) →
      hp r = sys.world.heap r := by
    intro k r hk hne
    apply h1
    intro f hf
    exact hne f (hI.inv.inj k (.glob f .n) r hk hf)
  refine ⟨?_, ?_, ?_⟩
  · intro b' f s v hng hv
    obtain ⟨dmb, r, hb', hg, rfl⟩ := read_ok.1 hv
    rcases getData_key hb' hg with ⟨g, a⟩ | ⟨g, a⟩
    · exact absurd ((isGlobal_iff hI).2 g) hng
    · obtain ⟨dmb', hb''⟩ := hmgr b' dmb hb'
      refine read_ok.2 ⟨dmb', r, hb'', ?_, hnot a (by intro f'; simp)⟩
      refine getData_of_loc (sys := ⟨{ sys.world with heap := hp },
        sys.dms.set b { dm with stateN := dm.stateNP1, stateNP1 := dm.stateN }⟩) hb'' g ?_
      simp only [addr] at a ⊢
      rw [fam_swap sys.world _ sys.dms b dm hdm]
      by_cases hbb : b' = b
      · simp only [hbb, if_true, swapStep_invol]; rw [← hbb]; exact a
      · simp only [hbb, if_false]; exact a
  · intro b' f s v hgl hs hv
    obtain ⟨dmb, r, hb', hg, rfl⟩ := read_ok.1 hv
    have g := (isGlobal_iff hI).1 hgl
    rcases getData_key hb' hg with ⟨-, a⟩ | ⟨g', -⟩
    · obtain ⟨dmb', hb''⟩ := hmgr b' dmb hb'
      refine read_ok.2 ⟨dmb', r, hb'', ?_, hnot a (by intro f' e; cases e; exact hs rfl)⟩
      exact getData_of_glob (sys := ⟨{ sys.world with heap := hp },
        sys.dms.set b { dm with stateN := dm.stateNP1, stateNP1 := dm.stateN }⟩) g a
    · rw [g] at g'; cases g'
  · intro b' f v hgl hv
    obtain ⟨dmb, p, hb', hg, rfl⟩ := read_ok.1 hv
    have g := (isGlobal_iff hI).1 hgl
    rcases getData_key hb' hg with ⟨-, a⟩ | ⟨g', -⟩
    · -- the partner at step N
      obtain ⟨n, hn⟩ : ∃ n, sys.world.globalData.lookup (f, Step.n) = some n := by
        have hex : ∃ g n, sys.world.globalData.lookup (g, Step.n) = some n ∧
            sys.world.globalData.lookup (g, Step.np1) = some p := by
          have aux : ∀ {k ns ps}, PairOK k sys.world ns ps → p ∈ ps → ∃ g n,
              sys.world.globalData.lookup (g, Step.n) = some n ∧
              sys.world.globalData.lookup (g, Step.np1) = some p := by
            intro k ns ps hP hm
            obtain ⟨i, hi, he⟩ := List.getElem_of_mem hm
            have hl := List.Forall₂.length_eq hP
            have hz : (ns[i]'(by omega), p) ∈ ns.zip ps := by
              have : (ns.zip ps)[i]'(by simp; omega) = (ns[i]'(by omega), p) := by
                rw [List.getElem_zip, he]
              rw [← this]; exact List.getElem_mem _
            obtain ⟨g, hg1, hg2⟩ := hP.zip hz
            exact ⟨g, _, hg1, hg2⟩
          rcases hI.inv.covered' f p a with hm | hm
          · exact aux hI.inv.pairS hm
          · exact aux hI.inv.pairV hm
        obtain ⟨g', n, hn, hp'⟩ := hex
        have := hI.inv.inj (.glob f .np1) (.glob g' .np1) p a hp'
        cases this
        exact ⟨n, hn⟩
      obtain ⟨p', hp1, hp2⟩ := h2 f n hn
      have : p' = p := by
        simp only [addr] at a
        rw [hp1] at a
        exact Option.some.inj a
      subst this
      obtain ⟨dmb', hb''⟩ := hmgr b' dmb hb'
      exact read_ok.2 ⟨dmb', n, hb'', getData_of_glob (sys := ⟨{ sys.world with heap := hp },
        sys.dms.set b { dm with stateN := dm.stateNP1, stateNP1 := dm.stateN }⟩) g hn, hp2⟩
    · rw [g] at g'; cases g'

/-- Registration and creation of managers do not change what can be read. -/
theorem grow_effect [Zero α] {sys s1 : System α} (hI : SysInv sys) {c : Cmd α}
    (hc : (∃ r, c = .register r) ∨ ∃ m ids, c = .create m ids) (h : exec sys c = .ok s1)
    {b f : Nat} {s : Step} {v : Vec α} (hv : sys.read b f s = .ok v) : s1.read b f s = .ok v := by
  obtain ⟨ds, hR⟩ := hI.inv.rep
  obtain ⟨dm, r, hb, hg, rfl⟩ := read_ok.1 hv
  rcases hc with ⟨q, rfl⟩ | ⟨m, ids, rfl⟩
  · simp only [exec] at h
    split at h <;> try cases h
    rename_i id fm' hq
    obtain ⟨-, h2, -⟩ := register_keeps hR hq
    refine read_ok.2 ⟨dm, r, hb, ?_, rfl⟩
    rcases getData_key hb hg with ⟨g, a⟩ | ⟨g, a⟩
    · exact getData_of_glob (sys := { sys with world := { sys.world with fm := fm' } }) (h2 f _ g) a
    · exact getData_of_loc (sys := { sys with world := { sys.world with fm := fm' } }) hb (h2 f _ g) a
  · simp only [exec] at h
    split at h <;> try cases h
    rename_i w' dm' ha
    obtain ⟨-, hF, -, -⟩ := allocateData_inv (b := sys.dms.length) hI.inv hI.glob
      (fun s => by simp [fam]) ha
    have hlt := (List.getElem?_eq_some_iff.1 hb).1
    have hb' : (sys.dms ++ [dm'])[b]? = some dm := by
      rw [List.getElem?_append_left hlt]; exact hb
    refine read_ok.2 ⟨dm, r, hb', ?_, ?_⟩
    · rcases getData_key hb hg with ⟨g, a⟩ | ⟨g, a⟩
      · exact getData_of_glob (sys := ⟨w', sys.dms ++ [dm']⟩) (by rw [hF.fm]; exact g)
          (hF.look _ _ a)
      · refine getData_of_loc (sys := ⟨w', sys.dms ++ [dm']⟩) hb' (by rw [hF.fm]; exact g) ?_
        simp only [addr, fam, hb', hb] at a ⊢
        exact a
    · apply hF.heap
      rcases getData_key hb hg with ⟨g, a⟩ | ⟨g, a⟩ <;> exact hI.inv.bound _ _ a

theorem isGlobal_exec [Zero α] {sys s1 : System α} (hI : SysInv sys) {c : Cmd α}
    (h : exec sys c = .ok s1) {f : Nat} {g : Bool} (hg : isGlobalSpec sys.world.fm f = .ok g) :
    isGlobalSpec s1.world.fm f = .ok g := by
  obtain ⟨ds, hR⟩ := hI.inv.rep
  cases c with
  | register r =>
    simp only [exec] at h
    split at h <;> try cases h
    rename_i id fm' hq
    exact (register_keeps hR hq).2.1 f g hg
  | create m ids =>
    simp only [exec] at h
    split at h <;> try cases h
    rename_i w' dm' ha
    obtain ⟨-, hF, -, -⟩ := allocateData_inv (b := sys.dms.length) hI.inv hI.glob
      (fun s => by simp [fam]) ha
    rw [hF.fm]; exact hg
  | write b f' s i x =>
    simp only [exec] at h
    split at h <;> try cases h
    split at h <;> try cases h
    split at h <;> try cases h
    rename_i w' hw
    obtain ⟨hi, rfl⟩ := setEntry_spec hw
    exact hg
  | update b =>
    simp only [exec] at h
    split at h <;> try cases h
    rename_i dm hdm
    split at h <;> try cases h
    rename_i w' dm' hu
    obtain ⟨hp, he, -⟩ := shift_spec hI.inv dm
    rw [he] at hu
    cases hu
    exact hg

theorem read_isGlobal {sys : System α} {b f : Nat} {s : Step} {v : Vec α}
    (hv : sys.read b f s = .ok v) : ∃ g, isGlobalSpec sys.world.fm f = .ok g := by
  obtain ⟨dm, r, -, hg, -⟩ := read_ok.1 hv
  exact getData_ok_isGlobal hg

/-! ## C03 -/

/-- **C03, shift.** For a point or bond field, what is stored at step N+1 before a state update is
what is read at step N afterwards, and it stays so under every further sequence of calls that neither
updates this manager nor writes that slot. -/
theorem C03_two_step_shift [Zero α] (sys s1 s2 : System α) (hR : Reachable sys) (b f : Nat)
    (v : Vec α) (hloc : ¬ IsGlobal sys f) (hv : sys.read b f .np1 = .ok v)
    (hu : exec sys (.update b) = .ok s1) (cmds : List (Cmd α)) (h2 : execAll s1 cmds = .ok s2)
    (hno : ∀ c ∈ cmds, c ≠ .update b ∧ ∀ i x, c ≠ .write b f .n i x) :
    s2.read b f .n = .ok v := by
  have hI := reachable_inv hR
  have hI1 := exec_inv hI hu
  have h1 : s1.read b f .n = .ok v := by
    have := (update_effect hI hu).1 b f .np1 v hloc hv
    simpa [swapStep] using this
  have hg1 : isGlobalSpec s1.world.fm f = .ok false := by
    obtain ⟨g, hg⟩ := read_isGlobal hv
    cases g with
    | true => exact absurd ((isGlobal_iff hI).2 hg) hloc
    | false => exact isGlobal_exec hI hu hg
  clear hv hu hloc hI hR
  induction cmds generalizing s1 with
  | nil => simp only [execAll] at h2; cases h2; exact h1
  | cons c cs ih =>
    simp only [execAll] at h2
    split at h2 <;> try cases h2
    rename_i s1' hc
    have hI1' := exec_inv hI1 hc
    have hng : ¬ IsGlobal s1 f := not_isGlobal hI1 hg1
    refine ih s1' h2 (fun c' hc' => hno c' (List.mem_cons_of_mem _ hc')) hI1' ?_
      (isGlobal_exec hI1 hc hg1)
    obtain ⟨hn1, hn2⟩ := hno c List.mem_cons_self
    cases c with
    | register r => exact grow_effect hI1 (Or.inl ⟨r, rfl⟩) hc h1
    | create m ids => exact grow_effect hI1 (Or.inr ⟨m, ids, rfl⟩) hc h1
    | write b' f' s' i x =>
      rw [(write_effect hI1 hc).2 b f .n ?_]
      · exact h1
      · rintro ⟨rfl, rfl, rfl | hh⟩
        · exact hn2 i x rfl
        · exact hng hh
    | update b' =>
      have := (update_effect hI1 hc).1 b f .n v hng h1
      have hbb : b ≠ b' := by rintro rfl; exact hn1 rfl
      simpa [hbb] using this

/-- **C03, writes.** A write changes exactly the written entry of the written slot: reading it back
gives the new value, and no other field, step or manager is affected. -/
theorem C03_write_exact [Zero α] (sys s1 : System α) (hR : Reachable sys) (b f i : Nat) (s : Step)
    (x : α) (h : exec sys (.write b f s i x) = .ok s1) :
    (∃ v, sys.read b f s = .ok v ∧ i < v.vals.length ∧
      s1.read b f s = .ok ⟨v.map, v.vals.set i x⟩) ∧
    (∀ b' f' s', ¬ (f' = f ∧ s' = s ∧ (b' = b ∨ IsGlobal sys f)) →
      s1.read b' f' s' = sys.read b' f' s') :=
  write_effect (reachable_inv hR) h

/-! ## C04 -/

/-- **C04.** What is read from a stateless field is the same after any sequence of calls - state
updates of any manager included - that does not write that field's data. -/
theorem C04_stateless [Zero α] (sys s2 : System α) (hR : Reachable sys) (b f : Nat) (v : Vec α)
    (hv : sys.read b f .none = .ok v) (cmds : List (Cmd α)) (h2 : execAll sys cmds = .ok s2)
    (hno : ∀ c ∈ cmds, ¬ Writes sys c b f .none) : s2.read b f .none = .ok v := by
  have hI := reachable_inv hR
  obtain ⟨g, hg⟩ := read_isGlobal hv
  have hglob : ∀ sys' : System α, SysInv sys' → isGlobalSpec sys'.world.fm f = .ok g →
      (IsGlobal sys' f ↔ g = true) := by
    intro sys' hI' hg'
    rw [isGlobal_iff hI', hg']
    simp
  have hno' : ∀ c ∈ cmds, ∀ b' i x, c = .write b' f .none i x → b' ≠ b ∧ g = false := by
    intro c hc b' i x he
    have := hno c hc
    unfold Writes at this
    constructor
    · rintro rfl; exact this ⟨b', i, x, he, Or.inl rfl⟩
    · cases g with
      | false => rfl
      | true => exact absurd ⟨b', i, x, he, Or.inr ((hglob sys hI hg).2 rfl)⟩ this
  clear hno hR
  induction cmds generalizing sys with
  | nil => simp only [execAll] at h2; cases h2; exact hv
  | cons c cs ih =>
    simp only [execAll] at h2
    split at h2 <;> try cases h2
    rename_i s1 hc
    refine ih s1 ?_ h2 (exec_inv hI hc) (isGlobal_exec hI hc hg)
      (fun c' hc' => hno' c' (List.mem_cons_of_mem _ hc'))
    cases c with
    | register r => exact grow_effect hI (Or.inl ⟨r, rfl⟩) hc hv
    | create m ids => exact grow_effect hI (Or.inr ⟨m, ids, rfl⟩) hc hv
    | write b' f' s' i x =>
      rw [(write_effect hI hc).2 b f .none ?_]
      · exact hv
      · rintro ⟨rfl, rfl, hh⟩
        obtain ⟨hb, hgf⟩ := hno' _ List.mem_cons_self b' i x rfl
        rcases hh with rfl | hh
        · exact hb rfl
        · rw [(hglob sys hI hg).1 hh] at hgf; cases hgf
    | update b' =>
      by_cases hgl : IsGlobal sys f
      · exact (update_effect hI hc).2.1 b f .none v hgl (by decide) hv
      · have := (update_effect hI hc).1 b f .none v hgl hv
        simpa [swapStep] using this

/-! ## C05 -/

/-- **C05, sharing.** Every block delivers the same data for a global field. -/
theorem C05_shared [Zero α] (sys : System α) (hR : Reachable sys) (f : Nat) (hg : IsGlobal sys f)
    (s : Step) (b b' : Nat) (hb : b < sys.dms.length) (hb' : b' < sys.dms.length) :
    sys.read b f s = sys.read b' f s := by
  have hI := reachable_inv hR
  have g := (isGlobal_iff hI).1 hg
  unfold System.read
  rw [List.getElem?_eq_getElem hb, List.getElem?_eq_getElem hb']
  simp only [getData_global s g]

/-- **C05, shift.** When the blocks perform their state updates, in any order, any number of times
(at least one), the step-N value of a global field becomes the value held at step N+1, and the step
N+1 value is unchanged. -/
theorem C05_shift_once [Zero α] (sys s2 : System α) (hR : Reachable sys) (f : Nat)
    (hg : IsGlobal sys f) (b : Nat) (v : Vec α) (hv : sys.read b f .np1 = .ok v)
    (bs : List Nat) (hne : bs ≠ []) (h : execAll sys (bs.map Cmd.update) = .ok s2) :
    s2.read b f .n = .ok v ∧ s2.read b f .np1 = .ok v := by
  have hI := reachable_inv hR
  have hgs := (isGlobal_iff hI).1 hg
  have main : ∀ (bs : List Nat) (sys : System α), SysInv sys →
      isGlobalSpec sys.world.fm f = .ok true → sys.read b f .np1 = .ok v →
      (bs ≠ [] ∨ sys.read b f .n = .ok v) → execAll sys (bs.map Cmd.update) = .ok s2 →
      s2.read b f .n = .ok v ∧ s2.read b f .np1 = .ok v := by
    intro bs
    induction bs with
    | nil =>
      intro sys _ _ hv hor h
      simp only [List.map_nil, execAll] at h
      cases h
      exact ⟨hor.resolve_left (by simp), hv⟩
    | cons b' bs ih =>
      intro sys hI hgs hv _ h
      simp only [List.map_cons, execAll] at h
      split at h <;> try cases h
      rename_i s1 hc
      have hgl := (isGlobal_iff hI).2 hgs
      exact ih s1 (exec_inv hI hc) (isGlobal_exec hI hc hgs)
        ((update_effect hI hc).2.1 b f .np1 v hgl (by decide) hv)
        (Or.inr ((update_effect hI hc).2.2 b f v hgl hv)) h
  exact main bs sys hI hgs hv (Or.inl hne) h

/-- **C05 / C03, progress.** A state update of an existing data manager never fails. -/
theorem C05_update_total [Zero α] (sys : System α) (hR : Reachable sys) (b : Nat)
    (hb : b < sys.dms.length) : ∃ s1, exec sys (.update b) = .ok s1 := by
  have hI := reachable_inv hR
  simp only [exec, List.getElem?_eq_getElem hb]
  obtain ⟨hp, he, -⟩ := shift_spec hI.inv sys.dms[b]
  rw [he]
  exact ⟨_, rfl⟩

/-! ## C06 -/

/-- **C06, agreement (partial).** If the state object for the step exists, asking never fails, and
the answer is true exactly when fetching succeeds.  Missing: the case of a step for which the manager
has no state object, where the code dereferences a null pointer (`C06_hasData_can_crash`), and the
way in which fetching fails when there are no data, which can be an out-of-range vector index
(`C06_getData_can_crash`). -/
theorem C06_hasData_agrees_partial [Zero α] (sys : System α) (hR : Reachable sys) (b : Nat)
    (dm : DataManager) (hb : sys.dms[b]? = some dm) (f : Nat) (s : Step)
    (hst : s = .undefined ∨ (stateOf dm s).isSome) :
    ∃ a, hasData sys.world dm f s = .ok a ∧
      (a = true ↔ ∃ r, getData sys.world dm f s = .ok r) := by
  have hI := reachable_inv hR
  have hglobal : ∀ r, sys.world.globalData.lookup (f, s) = some r →
      getData sys.world dm f s = .ok r := by
    intro r hr
    exact getData_of_glob (hI.inv.globIs f s r hr).1 hr
  have hkey : ∀ r, getData sys.world dm f s = .ok r →
      (sys.world.globalData.lookup (f, s)).isSome ∨
        ∃ st, stateOf dm s = some st ∧ st.ref f = some r := by
    intro r hr
    rcases getData_key hb hr with ⟨-, a⟩ | ⟨g, -⟩
    · left; simp only [addr] at a; rw [a]; rfl
    · right; exact (getData_local_ok g).1 hr
  by_cases hu : s = .undefined
  · subst hu
    refine ⟨_, rfl, ?_⟩
    constructor
    · intro h
      obtain ⟨r, hr⟩ := Option.isSome_iff_exists.1 h
      exact ⟨r, hglobal r hr⟩
    · rintro ⟨r, hr⟩
      rcases hkey r hr with h | ⟨st, h, -⟩
      · exact h
      · simp [stateOf] at h
  · have hst := hst.resolve_left hu
    obtain ⟨st, hs⟩ := Option.isSome_iff_exists.1 hst
    have e : hasData sys.world dm f s =
        .ok (st.hasData f || (sys.world.globalData.lookup (f, s)).isSome) := by
      unfold hasData
      cases s <;> simp_all
    refine ⟨_, e, ?_⟩
    have hfam : fam sys b s = some st := by simp [fam, hb, hs]
    have hag := hI.inv.agree b s st hfam f
    rw [Bool.or_eq_true]
    constructor
    · rintro (h | h)
      · unfold State.hasData at h
        rw [hag] at h
        obtain ⟨r, hr⟩ := Option.isSome_iff_exists.1 h
        have haddr : addr sys.world (fam sys) (.loc b s f) = some r := by
          simp [addr, hfam, hr]
        exact ⟨r, getData_of_loc hb (hI.inv.locNot b s f r haddr) haddr⟩
      · obtain ⟨r, hr⟩ := Option.isSome_iff_exists.1 h
        exact ⟨r, hglobal r hr⟩
    · rintro ⟨r, hr⟩
      rcases hkey r hr with h | ⟨st', h1, h2⟩
      · exact Or.inr h
      · left
        rw [hs] at h1
        cases h1
        unfold State.hasData
        rw [hag, h2]; rfl

/-- **C06, own storage.** Two successful look-ups deliver the same vector object only if they ask for
the same field at the same step, and through the same manager unless the field is global. -/
theorem C06_own_storage [Zero α] (sys : System α) (hR : Reachable sys) (b b' f f' : Nat)
    (s s' : Step) (dm dm' : DataManager) (hb : sys.dms[b]? = some dm) (hb' : sys.dms[b']? = some dm')
    (r : Nat) (h : getData sys.world dm f s = .ok r) (h' : getData sys.world dm' f' s' = .ok r) :
    f' = f ∧ s' = s ∧ (b' = b ∨ IsGlobal sys f) := by
  have hI := reachable_inv hR
  rcases getData_key hb h with ⟨g1, a1⟩ | ⟨g1, a1⟩ <;>
    rcases getData_key hb' h' with ⟨g2, a2⟩ | ⟨g2, a2⟩
  · have := hI.inv.inj _ _ _ a1 a2
    cases this
    exact ⟨rfl, rfl, Or.inr ((isGlobal_iff hI).2 g1)⟩
  · cases hI.inv.inj _ _ _ a1 a2
  · cases hI.inv.inj _ _ _ a1 a2
  · have := hI.inv.inj _ _ _ a1 a2
    cases this
    exact ⟨rfl, rfl, Or.inl rfl⟩

/-- **C06, requested data exist.** After a manager has been created for a list of fields, every
requested field can be fetched at the steps belonging to its temporal kind. -/
theorem C06_requested_available [Zero α] (sys s1 : System α) (hR : Reachable sys) (m : Maps)
    (ids : List Nat) (h : exec sys (.create m ids) = .ok s1) (f : Nat) (hf : f ∈ ids) :
    ∃ spec, Field.getFieldSpec sys.world.fm f = .ok spec ∧ (spec.relation ≠ .undefined →
      (spec.temporal = .constant → ∃ v, s1.read sys.dms.length f .none = .ok v) ∧
      (spec.temporal = .twoStep → (∃ v, s1.read sys.dms.length f .n = .ok v) ∧
        ∃ v, s1.read sys.dms.length f .np1 = .ok v)) := by
  have hI := reachable_inv hR
  have hI1 := exec_inv hI h
  obtain ⟨ds, hRep⟩ := hI.inv.rep
  simp only [exec] at h
  split at h <;> try cases h
  rename_i w' dm' ha
  obtain ⟨-, hF, -, hA⟩ := allocateData_inv (b := sys.dms.length) hI.inv hI.glob
    (fun s => by simp [fam]) ha
  obtain ⟨spec, hs, hal⟩ := hA f hf
  refine ⟨spec, hs, fun hrel => ?_⟩
  have hb : (sys.dms ++ [dm'])[sys.dms.length]? = some dm' := by simp
  have hg := isGlobal_of_spec hRep hs
  have mkg : ∀ s, spec.relation = .global → (w'.globalData.lookup (f, s)).isSome →
      ∃ v, System.read ⟨w', sys.dms ++ [dm']⟩ sys.dms.length f s = .ok v := by
    intro s hr hl
    obtain ⟨r, hr'⟩ := Option.isSome_iff_exists.1 hl
    refine ⟨w'.heap r, read_ok.2 ⟨dm', r, hb, ?_, rfl⟩⟩
    refine getData_of_glob (sys := ⟨w', sys.dms ++ [dm']⟩) ?_ hr'
    rw [hF.fm, hg, hr]; rfl
  have mkl : ∀ s, (∃ st, stateOf dm' s = some st ∧ (st.ref f).isSome) →
      ∃ v, System.read ⟨w', sys.dms ++ [dm']⟩ sys.dms.length f s = .ok v := by
    rintro s ⟨st, h1, h2⟩
    obtain ⟨r, hr'⟩ := Option.isSome_iff_exists.1 h2
    have haddr : addr w' (fam (α := α) ⟨w', sys.dms ++ [dm']⟩) (.loc sys.dms.length s f) = some r := by
      simp [addr, fam, h1, hr']
    refine ⟨w'.heap r, read_ok.2 ⟨dm', r, hb, ?_, rfl⟩⟩
    exact getData_of_loc (sys := ⟨w', sys.dms ++ [dm']⟩) hb (hI1.inv.locNot _ _ _ _ haddr) haddr
  unfold Allocated at hal
  split at hal
  · rename_i hr
    exact ⟨fun ht => mkg _ hr (hal.1 ht), fun ht => ⟨mkg _ hr (hal.2 ht).1, mkg _ hr (hal.2 ht).2⟩⟩
  · rename_i hr; exact absurd hr hrel
  · exact ⟨fun ht => mkl .none (hal.1 ht), fun ht => ⟨mkl .n (hal.2 ht).1, mkl .np1 (hal.2 ht).2⟩⟩

/-! ## Concrete systems -/

/-- Five maps for three owned points 4, 7, 9 and one ghost 2; point 7 has no bond. -/
def demoMaps : Maps :=
  ⟨some (BlockMap.const [4, 7, 9] 1), some (BlockMap.const [4, 7, 9, 2] 1),
   some (BlockMap.const [4, 7, 9] 3), some (BlockMap.const [4, 7, 9, 2] 3),
   some ⟨[4, 9], [2, 1]⟩⟩

/-- Two blocks with a two-step vector field (0), a stateless scalar field (1), a two-step bond field
(2), a two-step global scalar (3) and a stateless global vector (4). -/
def demoCmds : List (Cmd Int) :=
  [.register ⟨.node, .vector, .twoStep, "Displacement"⟩,
   .register ⟨.element, .scalar, .constant, "Volume"⟩,
   .register ⟨.bond, .scalar, .twoStep, "Bond_Damage"⟩,
   .register ⟨.global, .scalar, .twoStep, "Energy"⟩,
   .register ⟨.global, .vector, .constant, "Origin"⟩,
   .create demoMaps [1, 0, 3, 2, 0, 4], .create demoMaps [0, 3, 1],
   .write 0 0 .np1 5 17, .write 1 3 .np1 0 42, .write 0 1 .none 2 8, .write 1 0 .n 3 1]

/-- The system reached by `demoCmds`. -/
def runOr (cs : List (Cmd Int)) : System Int :=
  match execAll System.init cs with
  | .ok s => s
  | _ => System.init

example : ∃ s, execAll System.init demoCmds = .ok s := ⟨_, rfl⟩

example : Reachable (runOr demoCmds) := ⟨demoCmds, rfl⟩

example : (runOr demoCmds).read 0 0 .np1 =
    .ok ⟨BlockMap.const [4, 7, 9, 2] 3, [0, 0, 0, 0, 0, 17, 0, 0, 0, 0, 0, 0]⟩ := by rfl

example : ¬ IsGlobal (runOr demoCmds) 0 := by
  rintro ⟨spec, h1, h2⟩
  have : Field.getFieldSpec (runOr demoCmds).world.fm 0
      = .ok ⟨.node, .vector, .twoStep, "Displacement", 0⟩ := rfl
  rw [this] at h1
  cases h1
  cases h2

example : IsGlobal (runOr demoCmds) 3 := ⟨_, rfl, rfl⟩

example : ∃ s1, exec (runOr demoCmds) (.update 0) = .ok s1 ∧ ∃ s2,
    execAll s1 [.write 0 0 .np1 5 18, .update 1] = .ok s2 := ⟨_, rfl, _, rfl⟩

/-- **C06 is false as stated (1).** A manager holding only stateless fields crashes when asked
whether it has data at step N. -/
theorem C06_hasData_can_crash : ∃ (sys : System Int) (dm : DataManager) (f : Nat),
    Reachable sys ∧ sys.dms[0]? = some dm ∧ hasData sys.world dm f .n = .ub := by
  let cs : List (Cmd Int) :=
    [.register ⟨.element, .scalar, .constant, "Volume"⟩, .create demoMaps [0]]
  exact ⟨runOr cs, _, 0, ⟨cs, rfl⟩, rfl, rfl⟩

/-- **C06 is false as stated (2).** A manager that has a state object for the step, and answers that
it has no data for a registered field, reads outside a vector when the data are fetched. -/
theorem C06_getData_can_crash : ∃ (sys : System Int) (dm : DataManager) (f : Nat),
    Reachable sys ∧ sys.dms[0]? = some dm ∧ hasData sys.world dm f .none = .ok false ∧
      getData sys.world dm f .none = .ub := by
  let cs : List (Cmd Int) :=
    [.register ⟨.element, .scalar, .constant, "Volume"⟩,
     .register ⟨.element, .scalar, .constant, "Density"⟩, .create demoMaps [0]]
  exact ⟨runOr cs, _, 1, ⟨cs, rfl⟩, rfl, rfl, rfl⟩

end Verif.Data
