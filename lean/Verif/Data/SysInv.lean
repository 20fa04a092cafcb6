import Verif.Data.Create2

/-! Helper lemmas: every reachable system satisfies the invariant; effect of each API call on what
can be read. -/

namespace Verif.Data

open Verif Verif.Field

variable {α : Type}

def fam (sys : System α) : Family := fun b s => (sys.dms[b]?).bind (fun dm => stateOf dm s)

structure SysInv (sys : System α) : Prop where
  inv : WInv sys.world (fam sys)
  glob : GlobalsComplete sys.world

theorem init_inv [Zero α] : SysInv (System.init : System α) := by
  constructor
  · refine ⟨⟨[], rep_empty⟩, ?_, ?_, ?_, ?_, ?_, ?_, ?_, ?_, ?_⟩
    · intro k₁ k₂ r h1
      cases k₁ <;> simp [addr, fam, System.init] at h1
    · intro k r h1
      cases k <;> simp [addr, fam, System.init] at h1
    · intro b s st h; simp [fam, System.init] at h
    · intro b s f r h; simp [addr, fam, System.init] at h
    · intro f s r h; simp [addr, System.init] at h
    · exact List.Forall₂.nil
    · exact List.Forall₂.nil
    · intro f r h; simp [addr, System.init] at h
    · intro f r h; simp [addr, System.init] at h
  · intro f hf; simp [System.init] at hf

/-- Registering keeps what is known about registered fields. -/
theorem register_keeps {fm fm' : FieldManager} {ds : List Request} (hR : Rep fm ds) {r : Request}
    {id : Nat} (h : Field.getFieldId fm r = .ok (id, fm')) :
    (∃ ds', Rep fm' ds') ∧
    (∀ f b, isGlobalSpec fm f = .ok b → isGlobalSpec fm' f = .ok b) ∧
    (∀ f s, Field.getFieldSpec fm f = .ok s → Field.getFieldSpec fm' f = .ok s) := by
  rcases getFieldId_cases hR r with ⟨-, fm'', hg, hR'⟩ | ⟨-, hg⟩
  · rw [hg] at h
    cases h
    refine ⟨⟨_, hR'⟩, ?_, ?_⟩
    · intro f b hb
      unfold isGlobalSpec at hb ⊢
      split at hb <;> try cases hb
      rename_i hx
      rw [hR.globals] at hx
      obtain ⟨t, ht⟩ := addNew_prefix ds r
      rw [hR'.globals, ← ht, List.map_append, List.getElem?_append_left, hx]
      exact (List.getElem?_eq_some_iff.1 hx).1
    · intro f s hs
      unfold Field.getFieldSpec at hs ⊢
      split_ifs at hs with hlt
      have hlt' : f < ds.length := by rw [hR.specs] at hlt; simpa using hlt
      obtain ⟨t, ht⟩ := addNew_prefix ds r
      have hl' : f < fm'.fieldSpecs.length := by
        rw [hR'.specs, ← ht]; simp; omega
      rw [dif_neg (by omega)]
      injection hs with hs
      congr 1
      rw [← hs]
      have e1 : fm'.fieldSpecs[f]? = fm.fieldSpecs[f]? := by
        rw [hR'.specs, hR.specs, ← ht, List.getElem?_mapIdx, List.getElem?_mapIdx,
          List.getElem?_append_left hlt']
      rw [List.getElem?_eq_getElem hl', List.getElem?_eq_getElem (by omega)] at e1
      exact Option.some.inj e1
  · rw [hg] at h; cases h

theorem setEntry_spec {w w' : World α} {r : Ref} {i : Nat} {x : α}
    (h : w.setEntry r i x = .ok w') :
    i < (w.heap r).vals.length ∧
    w' = { w with heap := (fun r' =>
      if r' = r then ⟨(w.heap r).map, (w.heap r).vals.set i x⟩ else w.heap r') } := by
  unfold World.setEntry Vec.setEntry at h
  split at h <;> try cases h
  rename_i v hv
  split_ifs at hv with hi
  cases hv
  exact ⟨hi, rfl⟩

theorem setEntry_ok {w : World α} {r : Ref} {i : Nat} (x : α) (hi : i < (w.heap r).vals.length) :
    ∃ w', w.setEntry r i x = .ok w' := by
  unfold World.setEntry Vec.setEntry
  rw [if_pos hi]
  exact ⟨_, rfl⟩

theorem fam_append (w w' : World α) (dms : List DataManager) (dm : DataManager) :
    fam (α := α) ⟨w', dms ++ [dm]⟩ = famOf (fam (α := α) ⟨w, dms⟩) dms.length dm := by
  funext b s
  unfold fam famOf
  simp only
  split_ifs with hb
  · subst hb; simp
  · by_cases h : b < dms.length
    · rw [List.getElem?_append_left h]
    · rw [List.getElem?_append_right (by omega), List.getElem?_eq_none (by omega : dms.length ≤ b)]
      have : 0 < b - dms.length := by omega
      rw [List.getElem?_eq_none (by simp; omega)]

theorem stateOf_swap (dm : DataManager) (s : Step) :
    stateOf { dm with stateN := dm.stateNP1, stateNP1 := dm.stateN } s =
      stateOf dm (match s with | .n => .np1 | .np1 => .n | t => t) := by
  cases s <;> rfl

def swapStep : Step → Step
  | .n => .np1
  | .np1 => .n
  | t => t

theorem swapStep_invol (s : Step) : swapStep (swapStep s) = s := by cases s <;> rfl

theorem fam_swap (w w' : World α) (dms : List DataManager) (b : Nat) (dm : DataManager)
    (hb : dms[b]? = some dm) (b' : Nat) (s : Step) :
    fam (α := α) ⟨w', dms.set b { dm with stateN := dm.stateNP1, stateNP1 := dm.stateN }⟩ b' s =
      fam (α := α) ⟨w, dms⟩ b' (if b' = b then swapStep s else s) := by
  have hlt := (List.getElem?_eq_some_iff.1 hb).1
  unfold fam
  simp only
  split_ifs with h
  · subst h
    rw [List.getElem?_set_self hlt, hb]
    simp only [Option.bind_some]
    rw [stateOf_swap]; cases s <;> rfl
  · rw [List.getElem?_set_ne (fun e => h e.symm)]

theorem update_inv {w : World α} {S S' : Family} (hI : WInv w S) (b : Nat)
    (hS : ∀ b' s, S' b' s = S b' (if b' = b then swapStep s else s)) : WInv w S' := by
  have key : ∀ k, ∃ k', addr w S' k = addr w S k' ∧
      k' = (match k with | .loc b' s f => Key.loc b' (if b' = b then swapStep s else s) f | t => t) := by
    intro k
    refine ⟨_, ?_, rfl⟩
    cases k with
    | loc b' s f => simp only [addr]; rw [hS]
    | glob f s => rfl
  refine ⟨hI.rep, ?_, ?_, ?_, ?_, hI.globIs, hI.pairS, hI.pairV, hI.covered, hI.covered'⟩
  · intro k₁ k₂ r h1 h2
    obtain ⟨k₁', e1, d1⟩ := key k₁
    obtain ⟨k₂', e2, d2⟩ := key k₂
    rw [e1] at h1
    rw [e2] at h2
    have := hI.inj k₁' k₂' r h1 h2
    rw [d1, d2] at this
    cases k₁ <;> cases k₂
    · rename_i b1 s1 f1 b2 s2 f2
      simp only [Key.loc.injEq] at this
      obtain ⟨rfl, h, rfl⟩ := this
      split_ifs at h with hh
      · have := congrArg swapStep h
        rw [swapStep_invol, swapStep_invol] at this
        rw [this]
      · rw [h]
    · simp at this
    · simp at this
    · simpa using this
  · intro k r h
    obtain ⟨k', e, -⟩ := key k
    rw [e] at h
    exact hI.bound k' r h
  · intro b' s st h
    rw [hS] at h
    exact hI.agree _ _ st h
  · intro b' s f r h
    obtain ⟨k', e, d⟩ := key (.loc b' s f)
    rw [e, d] at h
    exact hI.locNot _ _ f r h

theorem exec_inv [Zero α] {sys sys' : System α} (hI : SysInv sys) {c : Cmd α}
    (h : exec sys c = .ok sys') : SysInv sys' := by
  obtain ⟨ds, hR⟩ := hI.inv.rep
  cases c with
  | register r =>
    simp only [exec] at h
    split at h <;> try cases h
    rename_i id fm' hg
    obtain ⟨h1, h2, h3⟩ := register_keeps hR hg
    constructor
    · refine ⟨h1, hI.inv.inj, hI.inv.bound, hI.inv.agree, ?_, ?_, hI.inv.pairS, hI.inv.pairV,
        hI.inv.covered, hI.inv.covered'⟩
      · intro b s f r hk; exact h2 f _ (hI.inv.locNot b s f r hk)
      · intro f s r hk
        obtain ⟨a, b⟩ := hI.inv.globIs f s r hk
        exact ⟨h2 f _ a, b⟩
    · intro f hf
      obtain ⟨spec, a, b⟩ := hI.glob f hf
      exact ⟨spec, h3 f _ a, b⟩
  | create m ids =>
    simp only [exec] at h
    split at h <;> try cases h
    rename_i w' dm ha
    obtain ⟨a, b, c, d⟩ := allocateData_inv (b := sys.dms.length) hI.inv hI.glob
      (fun s => by simp [fam]) ha
    refine ⟨?_, c⟩
    have := fam_append sys.world w' sys.dms dm
    rw [this]
    exact a
  | write b f s i x =>
    simp only [exec] at h
    split at h <;> try cases h
    split at h <;> try cases h
    rename_i r hr
    split at h <;> try cases h
    rename_i w' hw
    obtain ⟨hi, rfl⟩ := setEntry_spec hw
    constructor
    · refine hI.inv.of_heap _ ?_ ?_
      · intro r'
        by_cases hh : r' = r
        · simp [hh]
        · simp [hh]
      · intro r'
        by_cases hh : r' = r
        · simp [hh]
        · simp [hh]
    · exact hI.glob
  | update b =>
    simp only [exec] at h
    split at h <;> try cases h
    rename_i dm hdm
    split at h <;> try cases h
    rename_i w' dm' hu
    obtain ⟨hp, he, -, -, hi⟩ := shift_spec hI.inv dm
    rw [he] at hu
    cases hu
    refine ⟨update_inv hi b (fam_swap sys.world _ sys.dms b dm hdm), hI.glob⟩

theorem execAll_inv [Zero α] {sys sys' : System α} (hI : SysInv sys) {cs : List (Cmd α)}
    (h : execAll sys cs = .ok sys') : SysInv sys' := by
  induction cs generalizing sys with
  | nil => simp only [execAll] at h; cases h; exact hI
  | cons c cs ih =>
    simp only [execAll] at h
    split at h <;> try cases h
    rename_i s1 h1
    exact ih (exec_inv hI h1) h

theorem reachable_inv [Zero α] {sys : System α} (h : Reachable sys) : SysInv sys := by
  obtain ⟨cmds, hc⟩ := h
  exact execAll_inv init_inv hc

/-! ### Reading -/

/-- A field known to the registry as global / as not global. -/
theorem getData_global {w : World α} {dm : DataManager} {f : Nat} (s : Step)
    (h : isGlobalSpec w.fm f = .ok true) :
    getData w dm f s = match w.globalData.lookup (f, s) with
      | some r => .ok r
      | none => .fail .rangeError := by
  unfold getData
  simp only [h]
  cases w.globalData.lookup (f, s) <;> rfl

theorem getData_local_ok {w : World α} {dm : DataManager} {f : Nat} {s : Step} {r : Ref}
    (h : isGlobalSpec w.fm f = .ok false) :
    getData w dm f s = .ok r ↔ ∃ st, stateOf dm s = some st ∧ st.ref f = some r := by
  unfold getData
  rw [h]
  simp only
  split
  · simp [stateOf]
  · split
    · rename_i h1; simp [h1]
    · rename_i st h1
      rw [h1]
      unfold State.getData State.ref
      cases hx : st.dataVec[f]? with
      | none => simp [hx]
      | some o => cases o <;> simp [hx]

theorem getData_ok_isGlobal {w : World α} {dm : DataManager} {f : Nat} {s : Step} {r : Ref}
    (h : getData w dm f s = .ok r) : ∃ b, isGlobalSpec w.fm f = .ok b := by
  unfold getData at h
  split at h <;> try cases h
  · exact ⟨true, ‹_›⟩
  · exact ⟨false, ‹_›⟩

/-- The key of the slot accessed by `getData(f, s)` of manager `b`. -/
theorem getData_key {sys : System α} {b : Nat} {dm : DataManager} (hb : sys.dms[b]? = some dm)
    {f : Nat} {s : Step} {r : Ref} (h : getData sys.world dm f s = .ok r) :
    (isGlobalSpec sys.world.fm f = .ok true ∧ addr sys.world (fam sys) (.glob f s) = some r) ∨
    (isGlobalSpec sys.world.fm f = .ok false ∧ addr sys.world (fam sys) (.loc b s f) = some r) := by
  obtain ⟨g, hg⟩ := getData_ok_isGlobal h
  cases g with
  | true =>
    left
    refine ⟨hg, ?_⟩
    rw [getData_global s hg] at h
    simp only [addr]
    split at h
    · rename_i r' hr; cases h; exact hr
    · cases h
  | false =>
    right
    refine ⟨hg, ?_⟩
    obtain ⟨st, h1, h2⟩ := (getData_local_ok hg).1 h
    simp only [addr, fam, hb, Option.bind_some, h1, h2]

theorem getData_of_glob {sys : System α} {dm : DataManager} {f : Nat} {s : Step} {r : Ref}
    (hg : isGlobalSpec sys.world.fm f = .ok true)
    (h : addr sys.world (fam sys) (.glob f s) = some r) : getData sys.world dm f s = .ok r := by
  rw [getData_global s hg]
  simp only [addr] at h
  rw [h]

theorem getData_of_loc {sys : System α} {b : Nat} {dm : DataManager} (hb : sys.dms[b]? = some dm)
    {f : Nat} {s : Step} {r : Ref} (hg : isGlobalSpec sys.world.fm f = .ok false)
    (h : addr sys.world (fam sys) (.loc b s f) = some r) : getData sys.world dm f s = .ok r := by
  rw [getData_local_ok hg]
  simp only [addr, fam, hb, Option.bind_some] at h
  cases hs : stateOf dm s with
  | none => rw [hs] at h; cases h
  | some st => rw [hs] at h; exact ⟨st, rfl, h⟩

theorem read_ok {sys : System α} {b f : Nat} {s : Step} {v : Vec α} :
    sys.read b f s = .ok v ↔ ∃ dm r, sys.dms[b]? = some dm ∧ getData sys.world dm f s = .ok r ∧
      sys.world.heap r = v := by
  unfold System.read
  cases hb : sys.dms[b]? with
  | none => simp
  | some dm =>
    simp only
    cases hg : getData sys.world dm f s with
    | ok r => simp [hg]
    | fail e => simp [hg]
    | ub => simp [hg]

end Verif.Data
