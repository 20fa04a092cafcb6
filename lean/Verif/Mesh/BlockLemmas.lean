import Verif.Mesh.TextLemmas

/-!
# Lemmas on the names of the blocks of a text mesh
-/

noncomputable section

namespace Verif.Mesh

open Verif Verif.Mech

theorem intName_inj {a b : Int} (h : intName a = intName b) : a = b := by
  have h := congrArg String.toList h
  simp only [intName, String.toList_append] at h
  have h := List.append_cancel_left h
  exact Int.repr_injective (String.toList_inj.mp h)

theorem toString_no_e (b : Int) : 'e' ∉ (toString b).toList := by
  have hd : ∀ n : Nat, 'e' ∉ (Nat.repr n).toList := by
    intro n hn
    have hn : 'e' ∈ Nat.toDigits 10 n := by simpa [Nat.repr] using hn
    have := Nat.isDigit_of_mem_toDigits (by decide) (by decide) hn
    revert this; decide
  cases b with
  | ofNat n => exact hd n
  | negSucc n =>
    intro h
    have h : 'e' ∈ ("-" ++ Nat.repr (n + 1)).toList := h
    rw [String.toList_append] at h
    rcases List.mem_append.mp h with h | h
    · revert h; decide
    · exact hd _ h

theorem scientific_e (n : Nat) : 'e' ∈ scientific n := by
  simp [scientific]

theorem doubleName_small {b : Int} (h : b.natAbs < 10 ^ 6) : doubleName b = intName b := by
  rw [doubleName, if_pos h, intName]

theorem doubleName_large {b : Int} (h : ¬ b.natAbs < 10 ^ 6) (c : Int) : doubleName b ≠ intName c := by
  intro he
  rw [doubleName, if_neg h, intName, String.append_assoc] at he
  have he := congrArg String.toList he
  rw [String.toList_append, String.toList_append (s := "block_") (t := toString c)] at he
  have he := List.append_cancel_left he
  have hm : 'e' ∈ (toString c).toList := by
    rw [← he, String.toList_append]
    exact List.mem_append_right _ (by simpa using scientific_e b.natAbs)
  exact toString_no_e c hm

theorem setBlock_names (m : List (String × List Nat)) (name : String) (ids : List Nat)
    (h : name ∈ m.map Prod.fst) : (setBlock m name ids).map Prod.fst = m.map Prod.fst := by
  rw [setBlock, if_pos h, List.map_map]
  refine List.map_congr_left fun e _ => ?_
  by_cases he : e.1 = name
  · simp [he]
  · simp [he]

theorem setBlock_new (m : List (String × List Nat)) (name : String) (ids : List Nat)
    (h : name ∉ m.map Prod.fst) : setBlock m name ids = m ++ [(name, ids)] := by
  rw [setBlock, if_neg h]

theorem lookup_set (m : List (String × List Nat)) (name : String) (ids : List Nat)
    (h : name ∈ m.map Prod.fst) (k : String) :
    (setBlock m name ids).lookup k = if k = name then some ids else m.lookup k := by
  rw [setBlock, if_pos h]
  induction m with
  | nil => simp at h
  | cons e m ih =>
    rw [List.map_cons]
    by_cases he : e.1 = name
    · rw [if_pos he]
      by_cases hk : k = name
      · simp [hk]
      · rw [if_neg hk]
        have hke : (k == e.1) = false := by simpa [he] using hk
        have hkn : (k == name) = false := by simpa using hk
        rw [List.lookup_cons, List.lookup_cons, hke]
        simp only [hkn]
        by_cases hm : name ∈ m.map Prod.fst
        · rw [ih hm, if_neg hk]
        · have : (m.map fun e => if e.1 = name then (name, ids) else e) = m := by
            conv_rhs => rw [← List.map_id m]
            refine List.map_congr_left fun x hx => ?_
            rw [if_neg]
            · rfl
            · intro hx'
              exact hm (List.mem_map.mpr ⟨x, hx, hx'⟩)
          rw [this]
    · rw [if_neg he]
      have hm : name ∈ m.map Prod.fst := by
        rcases List.mem_cons.mp h with h | h
        · exact absurd h.symm he
        · exact h
      obtain ⟨e1, e2⟩ := e
      rw [List.lookup_cons, List.lookup_cons]
      by_cases hke : k = e1
      · subst hke
        simp only [beq_self_eq_true]
        rw [if_neg he]
      · have : (k == e1) = false := by simpa using hke
        rw [this]
        exact ih hm

theorem initBlocks_eq : ∀ (bs : List Int) (m : List (String × List Nat)), bs.Nodup →
    (∀ b ∈ bs, intName b ∉ m.map Prod.fst) → initBlocks bs m = m ++ bs.map fun b => (intName b, [])
  | [], m, _, _ => by simp [initBlocks]
  | b :: bs, m, hn, hm => by
    rw [List.nodup_cons] at hn
    rw [initBlocks, setBlock_new _ _ _ (hm b (by simp)), initBlocks_eq bs _ hn.2]
    · simp
    · intro c hc hmem
      rw [List.map_append, List.mem_append] at hmem
      rcases hmem with h | h
      · exact hm c (List.mem_cons_of_mem _ hc) h
      · have : intName c = intName b := by simpa using h
        exact hn.1 (intName_inj this ▸ hc)

theorem lookup_names (bs : List Int) (b : Int) (h : b ∈ bs) :
    (bs.map fun b => (intName b, ([] : List Nat))).lookup (intName b) = some [] := by
  induction bs with
  | nil => simp at h
  | cons c bs ih =>
    rw [List.map_cons, List.lookup_cons]
    by_cases hc : intName b = intName c
    · simp [hc]
    · have : (intName b == intName c) = false := by simpa using hc
      rw [this]
      rcases List.mem_cons.mp h with h | h
      · exact absurd (by rw [h]) hc
      · exact ih h

theorem lookup_none {m : List (String × List Nat)} {k : String} (h : k ∉ m.map Prod.fst) : m.lookup k = none := by
  induction m with
  | nil => rfl
  | cons e m ih =>
    rw [List.map_cons, List.mem_cons, not_or] at h
    rw [List.lookup_cons]
    have : (k == e.1) = false := by simpa using h.1
    rw [this]
    exact ih h.2

theorem fillBlocks_ok (f : Nat → Int) (bs : List Int) : ∀ (own : List Nat) (m : List (String × List Nat))
    (g : Int → List Nat), m.map Prod.fst = bs.map intName → (∀ b ∈ bs, m.lookup (intName b) = some (g b)) →
    (∀ i ∈ own, f i ∈ bs) → (∀ i ∈ own, (f i).natAbs < 10 ^ 6) →
    ∃ m', fillBlocks f own m = .ok m' ∧ m'.map Prod.fst = bs.map intName ∧
      ∀ b ∈ bs, m'.lookup (intName b) = some (g b ++ own.filter fun i => f i = b)
  | [], m, g, hn, hl, _, _ => ⟨m, rfl, hn, fun b hb => by simpa using hl b hb⟩
  | i :: own, m, g, hn, hl, hin, hs => by
    have hi := hin i (by simp)
    have hname : intName (f i) ∈ m.map Prod.fst := by
      rw [hn]; exact List.mem_map.mpr ⟨f i, hi, rfl⟩
    obtain ⟨m', h1, h2, h3⟩ := fillBlocks_ok f bs own (setBlock m (intName (f i)) (g (f i) ++ [i]))
      (fun b => if f i = b then g b ++ [i] else g b) (by rw [setBlock_names _ _ _ hname, hn])
      (by
        intro b hb
        rw [lookup_set _ _ _ hname]
        by_cases hb' : f i = b
        · rw [if_pos (by rw [hb']), if_pos hb', hb']
        · rw [if_neg (fun e => hb' (intName_inj e).symm), if_neg hb', hl b hb])
      (fun j hj => hin j (List.mem_cons_of_mem _ hj)) (fun j hj => hs j (List.mem_cons_of_mem _ hj))
    refine ⟨m', ?_, h2, ?_⟩
    · rw [fillBlocks, doubleName_small (hs i (by simp)), hl _ hi]
      exact h1
    · intro b hb
      rw [h3 b hb]
      by_cases hb' : f i = b
      · simp [hb']
      · simp [hb']

theorem fillBlocks_large (f : Nat → Int) (bs : List Int) : ∀ (own : List Nat) (m : List (String × List Nat)),
    m.map Prod.fst = bs.map intName → (∃ i ∈ own, ¬ (f i).natAbs < 10 ^ 6) →
    fillBlocks f own m = .fail .terminate
  | [], _, _, h => by simp at h
  | i :: own, m, hn, h => by
    rw [fillBlocks]
    cases hl : m.lookup (doubleName (f i)) with
    | none => rfl
    | some ids =>
      have hname : doubleName (f i) ∈ m.map Prod.fst := by
        by_contra hc
        rw [lookup_none hc] at hl; cases hl
      have hsmall : (f i).natAbs < 10 ^ 6 := by
        by_contra hc
        rw [hn] at hname
        obtain ⟨b, _, hb⟩ := List.mem_map.mp hname
        exact doubleName_large hc b hb.symm
      refine fillBlocks_large f bs own _ (by rw [setBlock_names _ _ _ hname, hn]) ?_
      obtain ⟨j, hj, hjl⟩ := h
      rcases List.mem_cons.mp hj with h | h
      · exact absurd (h ▸ hsmall) hjl
      · exact ⟨j, h, hjl⟩

theorem nodup_uniqueBlocks (mesh : List (Nat × TextPoint)) : (uniqueBlocks mesh).Nodup := List.nodup_dedup _

theorem mem_uniqueBlocks {mesh : List (Nat × TextPoint)} {b : Int} :
    b ∈ uniqueBlocks mesh ↔ ∃ e ∈ mesh, e.2.block = b := by
  simp [uniqueBlocks]

theorem lookup_mem_mesh {mesh : List (Nat × TextPoint)} (hn : (mesh.map Prod.fst).Nodup) {g : Nat} {p : TextPoint}
    (h : (g, p) ∈ mesh) : mesh.lookup g = some p := by
  induction mesh with
  | nil => simp at h
  | cons e mesh ih =>
    rw [List.map_cons, List.nodup_cons] at hn
    rw [List.lookup_cons]
    rcases List.mem_cons.mp h with h | h
    · subst h; simp
    · have hne : g ≠ e.1 := by
        intro he
        exact hn.1 (he ▸ List.mem_map.mpr ⟨(g, p), h, rfl⟩)
      have : (g == e.1) = false := by simpa using hne
      rw [this]
      exact ih hn.2 h

theorem blockOf_eq {mesh : List (Nat × TextPoint)} (hn : (mesh.map Prod.fst).Nodup) {g : Nat} {p : TextPoint}
    (h : (g, p) ∈ mesh) : blockOf mesh g = p.block := by
  rw [blockOf, lookup_mem_mesh hn h]

theorem init_facts (mesh : List (Nat × TextPoint)) :
    (initBlocks (uniqueBlocks mesh) []).map Prod.fst = (uniqueBlocks mesh).map intName ∧
    ∀ b ∈ uniqueBlocks mesh, (initBlocks (uniqueBlocks mesh) []).lookup (intName b) = some [] := by
  rw [initBlocks_eq _ _ (nodup_uniqueBlocks mesh) (by simp), List.nil_append]
  refine ⟨by simp [List.map_map, Function.comp_def], fun b hb => lookup_names _ b hb⟩

end Verif.Mesh
