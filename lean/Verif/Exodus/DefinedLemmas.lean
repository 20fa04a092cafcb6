import Verif.Exodus.HeaderLemmas

/-! # Requests that are written -/

namespace Verif.Exodus

open Verif Verif.Field Verif.Mech

theorem firstData_defined {blocks : List Blk} {v : Var} (ht : v.spec.temporal ≠ .undefined)
    (h : ∃ b, blocks.head? = some b ∧ (b.data v.spec.id (stepOf v.spec.temporal)).isSome) :
    ∃ d, firstData blocks v = .ok d := by
  obtain ⟨b, hb, hd⟩ := h
  cases blocks with
  | nil => simp at hb
  | cons b' bs =>
    simp at hb
    subst hb
    obtain ⟨d, hd⟩ := Option.isSome_iff_exists.mp hd
    refine ⟨d, ?_⟩
    unfold firstData
    have : (if v.spec.temporal = .constant then Step.none else Step.np1) = stepOf v.spec.temporal := by
      unfold stepOf
      cases hv : v.spec.temporal
      · exact absurd hv ht
      · simp
      · simp
    simp only
    rw [this, hd]

theorem putGlobal_defined {w : Work} {x : ℝ} (h : w.index < w.globals.length) :
    ∃ w', w.putGlobal x = .ok w' ∧ w'.index = w.index + 1 ∧ w'.globals.length = w.globals.length ∧
      w'.file = w.file := by
  unfold Work.putGlobal
  rw [if_pos h]
  exact ⟨_, rfl, rfl, by simp, rfl⟩

theorem writeGlobal_defined {h : Header} {s : Nat} {blocks : List Blk} {v : Var} {w : Work}
    (hl : v.spec.length = .scalar ∨ v.spec.length = .vector)
    (hi : w.index + (endings v.spec.length).length ≤ w.globals.length)
    (hh : h.globalNames.length = w.globals.length) (hd : ∃ d, firstData blocks v = .ok d) :
    ∃ w', writeGlobal h s blocks v w = .ok w' := by
  obtain ⟨d, hd⟩ := hd
  unfold writeGlobal
  rcases hl with hl | hl
  · rw [hl] at hi ⊢
    simp only [endings, List.length_cons, List.length_nil] at hi
    simp only
    rw [if_pos (by omega), hd]
    simp only [Outcome.ok_bind]
    obtain ⟨w1, h1, _, h3, h4⟩ := putGlobal_defined (w := w) (x := d 0) (by omega)
    rw [h1]
    simp only [Outcome.ok_bind]
    unfold Records.putGlobals
    rw [if_pos (by rw [h3, hh])]
    exact ⟨_, rfl⟩
  · rw [hl] at hi ⊢
    simp only [endings, List.length_cons, List.length_nil] at hi
    simp only
    rw [if_pos (by omega), hd]
    simp only [Outcome.ok_bind]
    obtain ⟨w1, h1, a2, a3, _⟩ := putGlobal_defined (w := w) (x := d 0) (by omega)
    obtain ⟨w2, h2, b2, b3, _⟩ := putGlobal_defined (w := w1) (x := d 1) (by omega)
    obtain ⟨w3, h3, c2, c3, _⟩ := putGlobal_defined (w := w2) (x := d 2) (by omega)
    rw [h1]
    simp only [Outcome.ok_bind]
    rw [h2]
    simp only [Outcome.ok_bind]
    rw [h3]
    simp only [Outcome.ok_bind]
    unfold Records.putGlobals
    rw [if_pos (by omega)]
    exact ⟨_, rfl⟩

theorem scatter_defined {owned : List Nat} {d : Nat → ℝ} {stride c : Nat} {gs : List Nat} {j : Nat}
    {buf : Nat → ℝ} (h : ∀ g ∈ gs, g ∈ owned) :
    ∃ buf', scatter owned owned.length d stride c gs j buf = .ok buf' := by
  induction gs generalizing j buf with
  | nil => exact ⟨buf, rfl⟩
  | cons g gs ih =>
    obtain ⟨l, hl, hlt⟩ := lid_of_mem (h g List.mem_cons_self)
    rw [scatter, hl]
    simp only
    rw [if_pos hlt]
    exact ih fun g hg => h g (List.mem_cons_of_mem _ hg)

theorem scatterBlocks_defined {S : Site} {v : Var} {blocks : List Blk} {w : Work}
    (ho : ∀ g ∈ allIds blocks, g ∈ S.owned)
    (hd : ∀ b ∈ blocks, (b.data v.spec.id (stepOf v.spec.temporal)).isSome) :
    ∃ w', scatterBlocks S S.owned.length v blocks w = .ok w' := by
  induction blocks generalizing w with
  | nil => exact ⟨w, rfl⟩
  | cons b bs ih =>
    obtain ⟨d, hd0⟩ := Option.isSome_iff_exists.mp (hd b List.mem_cons_self)
    have hcons : allIds (b :: bs) = b.gids ++ allIds bs := by simp [allIds]
    rw [hcons] at ho
    have ho1 : ∀ g ∈ b.gids, g ∈ S.owned := fun g hg => ho g (List.mem_append_left _ hg)
    rw [scatterBlocks, hd0]
    simp only
    split
    · obtain ⟨x, hx⟩ := scatter_defined (owned := S.owned) (d := d) (stride := 1) (c := 0) (j := 0)
        (buf := w.x) ho1
      rw [hx]
      simp only [Outcome.ok_bind]
      exact ih (fun g hg => ho g (List.mem_append_right _ hg)) fun b hb => hd b (List.mem_cons_of_mem _ hb)
    · obtain ⟨x, hx⟩ := scatter_defined (owned := S.owned) (d := d) (stride := 3) (c := 0) (j := 0)
        (buf := w.x) ho1
      obtain ⟨y, hy⟩ := scatter_defined (owned := S.owned) (d := d) (stride := 3) (c := 1) (j := 0)
        (buf := w.y) ho1
      obtain ⟨z, hz⟩ := scatter_defined (owned := S.owned) (d := d) (stride := 3) (c := 2) (j := 0)
        (buf := w.z) ho1
      rw [hx]
      simp only [Outcome.ok_bind]
      rw [hy]
      simp only [Outcome.ok_bind]
      rw [hz]
      simp only [Outcome.ok_bind]
      exact ih (fun g hg => ho g (List.mem_append_right _ hg)) fun b hb => hd b (List.mem_cons_of_mem _ hb)
    · simp only [Outcome.ok_bind]
      exact ih (fun g hg => ho g (List.mem_append_right _ hg)) fun b hb => hd b (List.mem_cons_of_mem _ hb)

theorem putNodal_defined {r : Records} {h : Header} {s k : Nat} {vals : List ℝ}
    (hk : 1 ≤ k ∧ k ≤ h.nodeNames.length) : ∃ r', r.putNodal h s k vals = .ok r' := by
  unfold Records.putNodal
  rw [if_pos hk]
  exact ⟨_, rfl⟩

theorem putElem_defined {r : Records} {h : Header} {s k : Nat} {b : Int} {vals : List ℝ}
    (hk : 1 ≤ k ∧ k ≤ h.elemNames.length) (hb : b ∈ h.blocks.map Prod.fst) :
    ∃ r', r.putElem h s k b vals = .ok r' := by
  unfold Records.putElem
  rw [if_pos ⟨hk, hb⟩]
  exact ⟨_, rfl⟩

theorem writeNode_defined {S : Site} {N : Names} {h : Header} {s : Nat} {v : Var}
    {blocks : List Blk} {w : Work} (ho : ∀ g ∈ allIds blocks, g ∈ S.owned)
    (hd : ∀ b ∈ blocks, (b.data v.spec.id (stepOf v.spec.temporal)).isSome)
    (hk : ∀ a ∈ v.components, 1 ≤ N.node.get a ∧ N.node.get a ≤ h.nodeNames.length) :
    ∃ w', writeNode S N h S.owned.length s blocks v w = .ok w' := by
  obtain ⟨w1, h1⟩ := scatterBlocks_defined (S := S) (v := v) (w := w) ho hd
  unfold writeNode
  rw [h1]
  simp only [Outcome.ok_bind]
  split
  · next hl =>
    obtain ⟨f, hf⟩ := putNodal_defined (r := w1.file) (s := s) (vals := entries S.owned.length w1.x)
      (hk v.name (by simp [Var.components, hl, endings]))
    rw [hf]
    exact ⟨_, rfl⟩
  · next hl =>
    obtain ⟨f1, hf1⟩ := putNodal_defined (r := w1.file) (s := s)
      (vals := entries S.owned.length w1.x) (hk (v.name ++ "X") (by simp [Var.components, hl, endings]))
    obtain ⟨f2, hf2⟩ := putNodal_defined (r := f1) (s := s)
      (vals := entries S.owned.length w1.y) (hk (v.name ++ "Y") (by simp [Var.components, hl, endings]))
    obtain ⟨f3, hf3⟩ := putNodal_defined (r := f2) (s := s)
      (vals := entries S.owned.length w1.z) (hk (v.name ++ "Z") (by simp [Var.components, hl, endings]))
    rw [hf1]
    simp only [Outcome.ok_bind]
    rw [hf2]
    simp only [Outcome.ok_bind]
    rw [hf3]
    exact ⟨_, rfl⟩
  · exact ⟨_, rfl⟩

theorem writeComponents_defined {N : Names} {h : Header} {n s : Nat} {b : Blk} {v : Var}
    {d : Nat → ℝ} {stride : Nat} {sfx : List String} {c : Nat} {w : Work} (hn : b.gids.length ≤ n)
    (hk : ∀ a ∈ sfx, 1 ≤ N.elem.get (v.name ++ a) ∧ N.elem.get (v.name ++ a) ≤ h.elemNames.length)
    (hb : b.id ∈ h.blocks.map Prod.fst) :
    ∃ w', writeComponents N h n s b v d stride sfx c w = .ok w' := by
  induction sfx generalizing c w with
  | nil => exact ⟨w, rfl⟩
  | cons a sfx ih =>
    rw [writeComponents, fillBuffer, if_pos hn]
    simp only [Outcome.ok_bind]
    obtain ⟨f, hf⟩ := putElem_defined (r := w.file) (s := s) (vals := entries b.gids.length fun j =>
      if j < b.gids.length then d (stride * j + c) else w.x j) (hk a List.mem_cons_self) hb
    rw [hf]
    simp only [Outcome.ok_bind]
    exact ih fun a' ha' => hk a' (List.mem_cons_of_mem _ ha')

theorem writeElementBlock_defined {S : Site} {N : Names} {h : Header} {n s : Nat} {v : Var} {b : Blk}
    {w : Work} (hsp : v.spec.id = S.idField ∨ v.spec.id = S.procField → v.spec.length = .scalar)
    (ha : Allowed v) (hn : b.gids.length ≤ n)
    (hk : ∀ a ∈ v.components, 1 ≤ N.elem.get a ∧ N.elem.get a ≤ h.elemNames.length)
    (hb : b.id ∈ h.blocks.map Prod.fst) : ∃ w', writeElementBlock S N h n s v b w = .ok w' := by
  have hname : v.spec.length = .scalar → v.name ∈ v.components := by
    intro hl
    simp [Var.components, hl, endings]
  unfold writeElementBlock
  split
  · exact ⟨_, rfl⟩
  · split
    · next hid =>
      rw [fillBuffer, if_pos hn]
      simp only [Outcome.ok_bind]
      obtain ⟨f, hf⟩ := putElem_defined (r := w.file) (s := s) (vals := entries b.gids.length fun j =>
        if j < b.gids.length then (((b.gids.getD j 0 : Nat) : ℝ) + 1) else w.x j)
        (hk v.name (hname (hsp (Or.inl hid)))) hb
      rw [hf]
      exact ⟨_, rfl⟩
    · split
      · next hpr =>
        rw [fillBuffer, if_pos hn]
        simp only [Outcome.ok_bind]
        obtain ⟨f, hf⟩ := putElem_defined (r := w.file) (s := s) (vals := entries b.gids.length fun j =>
          if j < b.gids.length then (S.pid : ℝ) else w.x j)
          (hk v.name (hname (hsp (Or.inr hpr)))) hb
        rw [hf]
        exact ⟨_, rfl⟩
      · split
        · exact ⟨_, rfl⟩
        · next d hd =>
          split
          · next hl =>
            obtain ⟨f, hf⟩ := putElem_defined (r := w.file) (s := s)
              (vals := entries b.gids.length d) (hk v.name (hname hl)) hb
            rw [hf]
            exact ⟨_, rfl⟩
          · next hl =>
            simp only [fillBuffer, if_pos hn, Outcome.ok_bind]
            obtain ⟨f1, hf1⟩ := putElem_defined (r := w.file) (s := s)
              (vals := entries b.gids.length fun j => if j < b.gids.length then d (3 * j) else w.x j)
              (hk (v.name ++ "X") (by simp [Var.components, hl, endings])) hb
            obtain ⟨f2, hf2⟩ := putElem_defined (r := f1) (s := s)
              (vals := entries b.gids.length fun j => if j < b.gids.length then d (3 * j + 1) else w.y j)
              (hk (v.name ++ "Y") (by simp [Var.components, hl, endings])) hb
            obtain ⟨f3, hf3⟩ := putElem_defined (r := f2) (s := s)
              (vals := entries b.gids.length fun j => if j < b.gids.length then d (3 * j + 2) else w.z j)
              (hk (v.name ++ "Z") (by simp [Var.components, hl, endings])) hb
            rw [hf1]
            simp only [Outcome.ok_bind]
            rw [hf2]
            simp only [Outcome.ok_bind]
            rw [hf3]
            exact ⟨_, rfl⟩
          · next hl => exact absurd hl ha.1
          · next hl =>
            refine writeComponents_defined hn ?_ hb
            intro a ha'
            apply hk
            rw [Var.components, hl]
            exact List.mem_map_of_mem ha'
          · next l hs hv hsy hf =>
            have : ∃ k, variableDimension v.spec.length = .ok k ∧
                ∀ a ∈ numberSuffix.take k, a ∈ endings v.spec.length := by
              have hu := ha.2.1
              generalize v.spec.length = l at *
              cases l <;> simp at hs hv hsy hf hu <;> exact ⟨_, rfl, by simp [numberSuffix, endings]⟩
            obtain ⟨k, hk1, hk2⟩ := this
            rw [hk1]
            simp only [Outcome.ok_bind]
            refine writeComponents_defined hn ?_ hb
            intro a ha'
            apply hk
            rw [Var.components]
            exact List.mem_map_of_mem (hk2 a ha')

theorem writeElement_defined {S : Site} {N : Names} {h : Header} {n s : Nat} {v : Var}
    {blocks : List Blk} {w : Work}
    (hsp : v.spec.id = S.idField ∨ v.spec.id = S.procField → v.spec.length = .scalar)
    (ha : Allowed v) (hn : ∀ b ∈ blocks, b.gids.length ≤ n)
    (hk : ∀ a ∈ v.components, 1 ≤ N.elem.get a ∧ N.elem.get a ≤ h.elemNames.length)
    (hb : ∀ b ∈ blocks, b.id ∈ h.blocks.map Prod.fst) :
    ∃ w', writeElement S N h n s v blocks w = .ok w' := by
  induction blocks generalizing w with
  | nil => exact ⟨w, rfl⟩
  | cons b bs ih =>
    obtain ⟨w1, h1⟩ := writeElementBlock_defined (S := S) (s := s) (w := w) hsp ha (hn b List.mem_cons_self) hk
      (hb b List.mem_cons_self)
    rw [writeElement, h1]
    simp only [Outcome.ok_bind]
    exact ih (fun b hb' => hn b (List.mem_cons_of_mem _ hb'))
      fun b hb' => hb b (List.mem_cons_of_mem _ hb')

/-- The numbers of the names of a kind are positive and at most the number of names. -/
theorem get_bounds {l : List String} (hl : l.Nodup) {a : String} (ha : a ∈ l) :
    1 ≤ (numbered l).get a ∧ (numbered l).get a ≤ l.length := by
  rw [get_numbered_mem hl ha]
  have := List.idxOf_lt_length_of_mem ha
  omega

theorem writeVars_defined {S : Site} {N : Names} {h : Header} {n s : Nat} {blocks : List Blk}
    {vars all : List Var} {w : Work} (hsub : ∀ v ∈ vars, v ∈ all) (hreq : GoodRequest S all)
    (hg : h.globalNames.length = w.globals.length)
    (hi : w.index + (kindNames .global vars).length ≤ w.globals.length)
    (hp : Present all blocks)
    (hnode : ∀ v ∈ all, v.spec.relation = .node → n = S.owned.length ∧
      (∀ g ∈ allIds blocks, g ∈ S.owned) ∧
      ∀ a ∈ v.components, 1 ≤ N.node.get a ∧ N.node.get a ≤ h.nodeNames.length)
    (helem : ∀ v ∈ all, v.spec.relation = .element →
      (∀ b ∈ blocks, b.gids.length ≤ n ∧ b.id ∈ h.blocks.map Prod.fst) ∧
      ∀ a ∈ v.components, 1 ≤ N.elem.get a ∧ N.elem.get a ≤ h.elemNames.length) :
    ∃ w', writeVars S N h n s blocks vars w = .ok w' := by
  induction vars generalizing w with
  | nil => exact ⟨w, rfl⟩
  | cons v vs ih =>
    have hv := hsub v List.mem_cons_self
    have hall := hreq.2.1 v hv
    rw [kindNames_cons] at hi
    have h1 : ∃ w1, writeVar S N h n s blocks v w = .ok w1 := by
      unfold writeVar
      split
      · next hr =>
        rw [if_pos hr] at hi
        have hl : v.spec.length = .scalar ∨ v.spec.length = .vector := by
          rcases hall.1.2.2 with h | h | h
          · exact Or.inl h
          · exact Or.inr h
          · rw [hr] at h; cases h
        refine writeGlobal_defined hl ?_ hg (firstData_defined hall.2 (hp.2 v hv hr))
        simp [Var.components] at hi
        omega
      · next hr =>
        obtain ⟨rfl, a, b⟩ := hnode v hv hr
        exact writeNode_defined a (hp.1 v hv hr) b
      · next hr =>
        obtain ⟨a, b⟩ := helem v hv hr
        exact writeElement_defined (hreq.1 v hv) hall.1 (fun x hx => (a x hx).1) b
          fun x hx => (a x hx).2
      · exact ⟨_, rfl⟩
    obtain ⟨w1, h1⟩ := h1
    rw [writeVars, h1]
    simp only [Outcome.ok_bind]
    have hone : writeVars S N h n s blocks [v] w = .ok w1 := by
      rw [writeVars, h1]
      rfl
    obtain ⟨i1, i2, _⟩ := writeVars_index (hreq.1.sub fun u hu => by
      rw [List.mem_singleton] at hu; rw [hu]; exact hv) hone
    rw [kindNames_cons] at i1
    refine ih (fun u hu => hsub u (List.mem_cons_of_mem _ hu)) (by rw [i2, hg]) ?_
    rw [i1, i2]
    simp [kindNames] at hi ⊢
    omega

theorem copyNames_defined {l : List String} (h : ∀ a ∈ l, a.utf8ByteSize ≤ maxStr) :
    copyNames l = .ok l := by
  induction l with
  | nil => rfl
  | cons a l ih =>
    rw [copyNames, copyName, if_pos (h a List.mem_cons_self),
      ih fun b hb => h b (List.mem_cons_of_mem _ hb)]
    rfl

theorem exodusNodeSet_defined {owned gs : List Nat} (h : ∀ g ∈ gs, g ∈ owned) :
    ∃ l, exodusNodeSet owned gs = .ok l := by
  induction gs with
  | nil => exact ⟨[], rfl⟩
  | cons g gs ih =>
    obtain ⟨p, hp, _⟩ := lid_of_mem (h g List.mem_cons_self)
    obtain ⟨l, hl⟩ := ih fun g hg => h g (List.mem_cons_of_mem _ hg)
    rw [exodusNodeSet, hp]
    simp only
    rw [hl]
    exact ⟨_, rfl⟩

theorem exodusNodeSets_defined {owned : List Nat} {l : List (String × List Nat)}
    (h : ∀ s ∈ l, ∀ g ∈ s.2, g ∈ owned) : ∃ l', exodusNodeSets owned l = .ok l' := by
  induction l with
  | nil => exact ⟨[], rfl⟩
  | cons a l ih =>
    obtain ⟨nm, gs⟩ := a
    obtain ⟨s, hs⟩ := exodusNodeSet_defined (h (nm, gs) List.mem_cons_self)
    obtain ⟨ss, hss⟩ := ih fun s hs => h s (List.mem_cons_of_mem _ hs)
    rw [exodusNodeSets, hs]
    simp only [Outcome.ok_bind]
    rw [hss]
    exact ⟨_, rfl⟩

theorem initializeDatabase_defined {S : Site} {vars : List Var} {blocks : List Blk}
    (hs : GoodSite S blocks) (hr : GoodRequest S vars) :
    ∃ h N, initializeDatabase S vars blocks = .ok (h, N) ∧
      h.globalNames = kindNames .global vars ∧ h.nodeNames = kindNames .node vars ∧
      h.elemNames = kindNames .element vars ∧ N.global = numbered (kindNames .global vars) ∧
      N.node = numbered (kindNames .node vars) ∧ N.elem = numbered (kindNames .element vars) := by
  obtain ⟨h1, h2, h3, h4, h5, h6⟩ := hs
  obtain ⟨r1, r2, r3⟩ := hr
  obtain ⟨sets, e1⟩ := exodusNodeSets_defined (owned := S.owned) (l := S.nodeSets)
    fun s hs => (h5 s hs).2
  have e2 : copyNames (sets.map Prod.fst) = .ok (sets.map Prod.fst) := by
    apply copyNames_defined
    rw [(exodusNodeSets_ok e1).1]
    intro a ha
    obtain ⟨s, hs, rfl⟩ := List.mem_map.mp ha
    exact (h5 s hs).1
  have e3 : copyNames (blocks.map Blk.name) = .ok (blocks.map Blk.name) := by
    apply copyNames_defined
    intro a ha
    obtain ⟨s, hs, rfl⟩ := List.mem_map.mp ha
    exact h6 s hs
  have hlen : (allIds blocks).length ≤ S.owned.length :=
    List.Subperm.length_le (h3.2.subperm h4)
  have e4 : ∃ m, elementMap S.owned blocks = .ok m := by
    unfold elementMap
    have hflat : (blocks.flatMap fun b => b.gids.map (· + 1)) = (allIds blocks).map (· + 1) := by
      simp [allIds, List.map_flatMap]
    simp only
    rw [hflat, if_pos (by simpa using hlen)]
    exact ⟨_, rfl⟩
  obtain ⟨m, e4⟩ := e4
  obtain ⟨N, e5⟩ := assignAll_defined (vars := vars) (s := ⟨Index.empty, Index.empty, Index.empty⟩)
    fun v hv => (r2 v hv).1
  obtain ⟨_, g1, n1, l1⟩ := assignAll_ok e5
  rw [addAll_empty _ (r3 _).1] at g1 n1 l1
  have hd : (!S.owned.isEmpty) = true := by
    cases ho : S.owned with
    | nil => exact absurd ho h2
    | cons _ _ => rfl
  have e6 : N.global.table true = .ok (kindNames .global vars) := by rw [g1]; exact table_fits (r3 _).2
  have e7 : N.node.table true = .ok (kindNames .node vars) := by rw [n1]; exact table_fits (r3 _).2
  have e8 : N.elem.table true = .ok (kindNames .element vars) := by rw [l1]; exact table_fits (r3 _).2
  have e9 : ∃ t, truthTable S vars blocks N.elem.map.length true = .ok t := by
    unfold truthTable
    split
    · rw [truthRows_eq fun v hv => (r2 v hv).1]
      simp only [Outcome.ok_bind]
      rw [if_pos]
      · exact ⟨_, rfl⟩
      · rw [l1, List.length_flatMap]
        simp only [truth_row_length]
        simp [numbered]
    · exact ⟨_, rfl⟩
  obtain ⟨t, e9⟩ := e9
  have : ∃ h, initializeDatabase S vars blocks = .ok (h, N) ∧
      h.globalNames = kindNames .global vars ∧ h.nodeNames = kindNames .node vars ∧
      h.elemNames = kindNames .element vars := by
    unfold initializeDatabase
    rw [e1]
    simp only [Outcome.ok_bind]
    rw [e2]
    simp only [Outcome.ok_bind]
    rw [if_neg (by simpa using h1), e3]
    simp only [Outcome.ok_bind]
    rw [e4]
    simp only [Outcome.ok_bind]
    rw [e5]
    simp only [Outcome.ok_bind]
    rw [hd, e6]
    simp only [Outcome.ok_bind]
    rw [e7]
    simp only [Outcome.ok_bind]
    rw [e8]
    simp only [Outcome.ok_bind]
    rw [e9]
    exact ⟨_, rfl, rfl, rfl, rfl⟩
  obtain ⟨h, i1, i2, i3, i4⟩ := this
  exact ⟨h, N, i1, i2, i3, i4, g1, n1, l1⟩

theorem initializeGlobalDatabase_defined {S : Site} {vars : List Var} (hr : GoodRequest S vars)
    (hg : ∀ v ∈ vars, v.spec.relation = .global) :
    ∃ h N, initializeGlobalDatabase vars = .ok (h, N) ∧
      h.globalNames = kindNames .global vars ∧ N.global = numbered (kindNames .global vars) := by
  obtain ⟨r1, r2, r3⟩ := hr
  have hsv : ∀ v ∈ vars, v.spec.length = .scalar ∨ v.spec.length = .vector := by
    intro v hv
    rcases (r2 v hv).1.2.2 with h | h | h
    · exact Or.inl h
    · exact Or.inr h
    · rw [hg v hv] at h; cases h
  obtain ⟨g, e1⟩ := assignGlobals_defined (s := Index.empty) hsv
  have hgeq := (assignGlobals_ok e1 hg).2
  rw [addAll_empty _ (r3 _).1] at hgeq
  have e2 : g.table true = .ok (kindNames .global vars) := by rw [hgeq]; exact table_fits (r3 _).2
  have : ∃ h, initializeGlobalDatabase vars = .ok (h, ⟨g, Index.empty, Index.empty⟩) ∧
      h.globalNames = kindNames .global vars := by
    unfold initializeGlobalDatabase
    rw [e1]
    simp only [Outcome.ok_bind]
    rw [e2]
    exact ⟨_, rfl, rfl⟩
  obtain ⟨h, i1, i2⟩ := this
  exact ⟨h, _, i1, i2, hgeq⟩

theorem globalDataOnly_iff {vars : List Var} :
    globalDataOnly vars = true ↔ ∀ v ∈ vars, v.spec.relation = .global := by
  unfold globalDataOnly
  rw [List.all_eq_true]
  simp

theorem block_length_le {S : Site} {blocks : List Blk} (hp : Proper blocks)
    (ho : ∀ g ∈ allIds blocks, g ∈ S.owned) {b : Blk} (hb : b ∈ blocks) :
    b.gids.length ≤ S.owned.length := by
  have hsub : b.gids.Sublist (allIds blocks) := by
    unfold allIds
    rw [List.flatMap_def]
    exact List.sublist_flatten_of_mem (List.mem_map_of_mem hb)
  exact List.Subperm.length_le ((hp.2.sublist hsub).subperm fun g hg => ho g (hsub.subset hg))

theorem writeStep_defined {S : Site} {N : Names} {h : Header} {vars : List Var} {s : Nat} {t : ℝ}
    {blocks : List Blk} {r : Records} (hreq : GoodRequest S vars) (hp : Present vars blocks)
    (hg : h.globalNames = kindNames .global vars) (hN : N.global = numbered (kindNames .global vars))
    (hrest : globalDataOnly vars = true ∨ (Proper blocks ∧ (∀ g ∈ allIds blocks, g ∈ S.owned) ∧
      (∀ b ∈ blocks, b.id ∈ h.blocks.map Prod.fst) ∧
      h.nodeNames = kindNames .node vars ∧ h.elemNames = kindNames .element vars ∧
      N.node = numbered (kindNames .node vars) ∧ N.elem = numbered (kindNames .element vars))) :
    ∃ r', writeStep S N h vars s t blocks r = .ok r' := by
  unfold writeStep
  have hlen : N.global.map.length = (kindNames .global vars).length := by
    rw [hN]
    simp [numbered]
  have key : ∃ w', writeVars S N h (if globalDataOnly vars then 1 else S.owned.length) s blocks vars
      ⟨fun _ => 0, fun _ => 0, fun _ => 0, List.replicate N.global.map.length 0, 0, r.putTime s t⟩
        = .ok w' := by
    refine writeVars_defined (fun v hv => hv) hreq (by simp [hg, hlen]) (by simp [hlen]) hp ?_ ?_
    · intro v hv hr
      rcases hrest with hrest | ⟨_, ho, _, hn, _, hN', _⟩
      · have := globalDataOnly_iff.mp hrest v hv
        rw [hr] at this
        cases this
      · have hgo : globalDataOnly vars = false := by
          rw [Bool.eq_false_iff]
          intro hgo
          have := globalDataOnly_iff.mp hgo v hv
          rw [hr] at this
          cases this
        refine ⟨by rw [hgo]; rfl, ho, ?_⟩
        intro a ha
        rw [hN', hn]
        refine get_bounds (hreq.2.2 _).1 ?_
        obtain ⟨e, he, rfl⟩ := List.mem_map.mp ha
        exact component_mem hv hr he
    · intro v hv hr
      rcases hrest with hrest | ⟨hpr, ho, hb, _, hn, _, hN'⟩
      · have := globalDataOnly_iff.mp hrest v hv
        rw [hr] at this
        cases this
      · have hgo : globalDataOnly vars = false := by
          rw [Bool.eq_false_iff]
          intro hgo
          have := globalDataOnly_iff.mp hgo v hv
          rw [hr] at this
          cases this
        refine ⟨?_, ?_⟩
        · intro b hbb
          rw [hgo]
          exact ⟨block_length_le hpr ho hbb, hb b hbb⟩
        · intro a ha
          rw [hN', hn]
          refine get_bounds (hreq.2.2 _).1 ?_
          obtain ⟨e, he, rfl⟩ := List.mem_map.mp ha
          exact component_mem hv hr he
  obtain ⟨w', hw⟩ := key
  simp only
  rw [hw]
  exact ⟨_, rfl⟩

theorem session_defined {S : Site} {vars : List Var} {steps : List (ℝ × List Blk)} {b0 : List Blk}
    {t0 : ℝ} {rest : List (ℝ × List Blk)} (hst : steps = (t0, b0) :: rest)
    (hreq : GoodRequest S vars) (hp : ∀ p ∈ steps, Present vars p.2)
    (hs : globalDataOnly vars = true ∧ S.pid = 0 ∨ globalDataOnly vars = false ∧ GoodSite S b0 ∧
      ∀ p ∈ steps, SameBlocks p.2 b0) :
    ∃ h r, session S vars steps = .ok (some (h, r)) := by
  subst hst
  have hsteps : ∀ (h : Header) (N : Names) (l : List (ℝ × List Blk)),
      (∀ p ∈ l, ∀ s r, ∃ r', writeStep S N h vars s p.1 p.2 r = .ok r') →
      ∀ s r, ∃ r', writeSteps S N h vars s l r = .ok r' := by
    intro h N l
    induction l with
    | nil => intro _ s r; exact ⟨r, rfl⟩
    | cons p l ih =>
      intro hl s r
      obtain ⟨t, b⟩ := p
      obtain ⟨r1, h1⟩ := hl (t, b) List.mem_cons_self s r
      obtain ⟨r2, h2⟩ := ih (fun p hp => hl p (List.mem_cons_of_mem _ hp)) (s + 1) r1
      refine ⟨r2, ?_⟩
      rw [writeSteps, h1]
      simp only [Outcome.ok_bind]
      exact h2
  unfold session
  rcases hs with ⟨hg, hpid⟩ | ⟨hg, hsite, hsame⟩
  · obtain ⟨h, N, e1, e2, e3⟩ := initializeGlobalDatabase_defined hreq (globalDataOnly_iff.mp hg)
    obtain ⟨r, hr⟩ := hsteps h N ((t0, b0) :: rest)
      (fun p hpp s r => writeStep_defined hreq (hp p hpp) e2 e3 (Or.inl hg)) 1 Records.empty
    refine ⟨h, r, ?_⟩
    simp only
    rw [if_neg (by simp [hpid]), if_pos hg, e1]
    simp only [Outcome.ok_bind]
    rw [hr]
    rfl
  · obtain ⟨h, N, e1, e2, e3, e4, e5, e6, e7⟩ := initializeDatabase_defined hsite hreq
    have hbl : h.blocks.map Prod.fst = b0.map Blk.id := by
      obtain ⟨_, _, _, _, _, _, _, _, _, _, _, _, hbl, _⟩ := initializeDatabase_ok e1
      rw [hbl]
      simp [Function.comp_def]
    obtain ⟨r, hr⟩ := hsteps h N ((t0, b0) :: rest) (by
      intro p hpp s r
      have hsp := hsame p hpp
      refine writeStep_defined hreq (hp p hpp) e2 e5 (Or.inr ⟨?_, ?_, ?_, e3, e4, e6, e7⟩)
      · unfold Proper
        rw [hsp.ids, hsp.blockIds]
        exact hsite.2.2.1
      · rw [hsp.ids]
        exact hsite.2.2.2.1
      · intro b hb
        have hb' : b.id ∈ p.2.map Blk.id := List.mem_map_of_mem hb
        rw [hbl, ← hsp.blockIds]
        exact hb') 1 Records.empty
    refine ⟨h, r, ?_⟩
    simp only
    rw [if_neg (by simp [hg]), if_neg (by simp [hg]), e1]
    simp only [Outcome.ok_bind]
    rw [hr]
    rfl

end Verif.Exodus
