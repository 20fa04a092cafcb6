import Verif.Params.Spec
import Verif.BC.Lemmas
import Mathlib.Data.List.Perm.Subperm
import Mathlib.Tactic.Linarith

/-!
# Names and ids of blocks, and the blocks of an analysis (C57, C85)
-/

namespace Verif.Params

open Verif
open scoped Classical

/-! ### Ids -/

theorem findLast_split {set : List Char} {pre post : List Char} {c : Char} (hc : c ∈ set)
    (hp : ∀ d ∈ post, d ∉ set) : findLastOf set (pre ++ c :: post) = some pre.length := by
  unfold findLastOf
  have h1 : (pre ++ c :: post).reverse = post.reverse ++ c :: pre.reverse := by simp
  have h2 : List.findIdx? (fun x => decide (x ∈ set)) post.reverse = none := by
    rw [List.findIdx?_eq_none_iff]
    intro x hx
    simpa using hp x (List.mem_reverse.mp hx)
  rw [h1, List.findIdx?_append, h2]
  simp [List.findIdx?_cons, hc]

theorem digitsValue_eq (ds : List Char) : digitsValue ds = Nat.ofDigitChars 10 ds 0 := by
  rw [Nat.ofDigitChars_eq_foldl]
  rfl

theorem digit_facts {c : Char} (h : c.isDigit) : isBlank c = false ∧ c ≠ '-' ∧ c ≠ '+' ∧ c ≠ '_' ∧
    c ≠ 'G' ∧ c ≠ 'R' ∧ c ≠ 'A' ∧ c ≠ 'I' ∧ c ≠ 'N' := by
  refine ⟨?_, ?_, ?_, ?_, ?_, ?_, ?_, ?_, ?_⟩
  · unfold isBlank
    simp only [Bool.or_eq_false_iff, decide_eq_false_iff_not]
    refine ⟨⟨⟨?_, ?_⟩, ?_⟩, ?_⟩ <;> (rintro rfl; exact absurd h (by decide))
  all_goals (rintro rfl; exact absurd h (by decide))

theorem signedValue_digits {c : Char} {r : List Char} (h : c.isDigit) :
    signedValue (c :: r) = clampInt (digitsValue ((c :: r).takeWhile Char.isDigit)) := by
  obtain ⟨_, h1, h2, _⟩ := digit_facts h
  unfold signedValue
  split
  · rename_i e; cases e; exact absurd rfl h1
  · rename_i e; cases e; exact absurd rfl h2
  · rfl

theorem takeWhile_digits (ds : List Char) (h : ∀ c ∈ ds, c.isDigit) (post : List Char)
    (hp : ∀ c, post.head? = some c → ¬ c.isDigit) : (ds ++ post).takeWhile Char.isDigit = ds := by
  induction ds with
  | nil =>
    cases post with
    | nil => rfl
    | cons c post =>
      have := hp c rfl
      simp [List.takeWhile_cons, this]
  | cons d ds ih =>
    have h1 := h d (by simp)
    simp only [List.cons_append, List.takeWhile_cons, h1, if_true]
    rw [ih fun c hc => h c (by simp [hc])]

theorem extract_digits {n : Nat} (hn : n < 2147483648) (old : ℤ) :
    extractInt (Nat.toDigits 10 n) old = n := by
  have hall : ∀ c ∈ Nat.toDigits 10 n, c.isDigit := fun c hc =>
    Nat.isDigit_of_mem_toDigits (by norm_num) (by norm_num) hc
  have hne : Nat.toDigits 10 n ≠ [] := Nat.toDigits_ne_nil
  have hv : digitsValue (Nat.toDigits 10 n) = n := by
    rw [digitsValue_eq, Nat.ofDigitChars_ten_toDigits]
  generalize Nat.toDigits 10 n = ds at *
  cases ds with
  | nil => exact absurd rfl hne
  | cons c r =>
    have hc := hall c (by simp)
    unfold extractInt
    rw [List.dropWhile_cons, (digit_facts hc).1]
    simp only [Bool.false_eq_true, if_false]
    rw [signedValue_digits hc]
    have := takeWhile_digits (c :: r) hall [] (by simp)
    rw [List.append_nil] at this
    rw [this, hv]
    unfold clampInt
    omega

theorem digits_no_underscore {n : Nat} : ∀ d ∈ Nat.toDigits 10 n, d ∉ ['_'] := by
  intro d hd
  have := (digit_facts (Nat.isDigit_of_mem_toDigits (by norm_num) (by norm_num) hd)).2.2.2.1
  simpa using this

/-- **C57**, names without the capital letters of "GRAIN": a prefix, an underscore and a number give the
number. -/
theorem C57_cubit_partial (pre : List Char) (n : Nat) (hn : n < 2147483648)
    (hp : ∀ c ∈ pre, c ∉ ['G', 'R', 'A', 'I', 'N']) :
    blockNameToBlockId (pre ++ '_' :: Nat.toDigits 10 n) = .ok n := by
  have h1 : findFirstOf ['G', 'R', 'A', 'I', 'N'] (pre ++ '_' :: Nat.toDigits 10 n) = none := by
    unfold findFirstOf
    rw [List.findIdx?_eq_none_iff]
    intro x hx
    rw [List.mem_append, List.mem_cons] at hx
    rcases hx with hx | rfl | hx
    · simpa using hp x hx
    · decide
    · obtain ⟨_, _, _, _, h⟩ :=
        digit_facts (Nat.isDigit_of_mem_toDigits (by norm_num) (by norm_num) hx)
      simpa using h
  unfold blockNameToBlockId
  rw [h1]
  simp only
  rw [findLast_split (by simp) digits_no_underscore]
  simp only
  have h2 : substr (pre ++ '_' :: Nat.toDigits 10 n) (pre.length + 1)
      (pre ++ '_' :: Nat.toDigits 10 n).length = .ok (Nat.toDigits 10 n) := by
    unfold substr
    rw [if_neg (by simp)]
    rw [List.drop_append, List.drop_of_length_le (by omega)]
    simp only [Nat.add_sub_cancel_left, List.drop_succ_cons, List.drop_zero, List.nil_append]
    rw [List.take_of_length_le (by simp; omega)]
  rw [h2, Outcome.ok_bind, extract_digits hn]

example : blockNameToBlockId "block_12".toList = .ok 12 :=
  C57_cubit_partial "block".toList 12 (by norm_num) (by decide)

/-- **C57**, the other naming convention: "GRAIN", a number and "_SET" give the number. -/
theorem C57_grain_partial (n : Nat) (hn : n < 2147483648) :
    blockNameToBlockId ("GRAIN".toList ++ Nat.toDigits 10 n ++ "_SET".toList) = .ok n := by
  have hlen : (Nat.toDigits 10 n).length ≤ 10 :=
    (Nat.length_toDigits_le_iff (by norm_num) (by norm_num)).mpr (by omega)
  have e : "GRAIN".toList ++ Nat.toDigits 10 n ++ "_SET".toList =
      ('G' :: 'R' :: 'A' :: 'I' :: 'N' :: (Nat.toDigits 10 n ++ ['_', 'S', 'E', 'T'])) := by
    simp
  have h1 : findFirstOf ['G', 'R', 'A', 'I', 'N']
      ('G' :: 'R' :: 'A' :: 'I' :: 'N' :: (Nat.toDigits 10 n ++ ['_', 'S', 'E', 'T'])) = some 0 := by
    simp [findFirstOf, List.findIdx?_cons]
  have h2 : findLastOf ['_', 'S', 'E', 'T']
      ('G' :: 'R' :: 'A' :: 'I' :: 'N' :: (Nat.toDigits 10 n ++ ['_', 'S', 'E', 'T'])) =
      some (8 + (Nat.toDigits 10 n).length) := by
    have : ('G' :: 'R' :: 'A' :: 'I' :: 'N' :: (Nat.toDigits 10 n ++ ['_', 'S', 'E', 'T'])) =
        ('G' :: 'R' :: 'A' :: 'I' :: 'N' :: (Nat.toDigits 10 n ++ ['_', 'S', 'E'])) ++ 'T' :: [] := by
      simp
    rw [this, findLast_split (by simp) (by simp)]
    simp
    omega
  rw [e]
  unfold blockNameToBlockId
  rw [h1, h2]
  simp only
  have h3 : wrap (((8 + (Nat.toDigits 10 n).length : Nat) : ℤ) - 4 - (0 : Nat) - 5 + 1) =
      (Nat.toDigits 10 n).length := by
    unfold wrap
    omega
  rw [h3]
  have h4 : substr ('G' :: 'R' :: 'A' :: 'I' :: 'N' :: (Nat.toDigits 10 n ++ ['_', 'S', 'E', 'T'])) (0 + 5)
      (Nat.toDigits 10 n).length = .ok (Nat.toDigits 10 n) := by
    unfold substr
    rw [if_neg (by simp)]
    simp
  rw [h4, Outcome.ok_bind, extract_digits hn]

example : blockNameToBlockId "GRAIN7_SET".toList = .ok 7 := C57_grain_partial 7 (by norm_num)

/-- The id carried by a name is found for every prefix. -/
def NamesCarryIds : Prop :=
  ∀ (pre : List Char) (n : Nat), n < 2147483648 →
    blockNameToBlockId (pre ++ '_' :: Nat.toDigits 10 n) = .ok n

/-- **C57 is false of the code**: in "Region_1" the letter R is taken for the beginning of "GRAIN". -/
theorem C57_fails : ¬ NamesCarryIds := by
  intro h
  have := h "Region".toList 1 (by norm_num)
  have e : blockNameToBlockId ("Region".toList ++ '_' :: Nat.toDigits 10 1) = .ok 0 := by decide
  rw [e] at this
  have := BC.ok_inj this
  omega

/-- **C57**: "N_1" even stops the run. -/
theorem C57_throws : blockNameToBlockId "N_1".toList = .fail .outOfRange := by decide

/-- **C57**, the id of the blocks of the analysis is read differently: for every prefix it is the
number after the last underscore. -/
theorem C57_analysis (pre : List Char) (n : Nat) (hn : n < 2147483648) :
    blockId (pre ++ '_' :: Nat.toDigits 10 n) = .ok n := by
  unfold blockId
  rw [findLast_split (by simp) digits_no_underscore]
  simp only
  have h1 : (pre ++ '_' :: Nat.toDigits 10 n).drop (pre.length + 1) = Nat.toDigits 10 n := by
    rw [List.drop_append, List.drop_of_length_le (by omega)]
    simp
  rw [h1, if_neg, extract_digits hn]
  have hall : ∀ c ∈ Nat.toDigits 10 n, c.isDigit := fun c hc =>
    Nat.isDigit_of_mem_toDigits (by norm_num) (by norm_num) hc
  have hne : Nat.toDigits 10 n ≠ [] := Nat.toDigits_ne_nil
  generalize Nat.toDigits 10 n = ds at *
  cases ds with
  | nil => exact absurd rfl hne
  | cons c r =>
    rw [List.dropWhile_cons, (digit_facts (hall c (by simp))).1]
    simp

example : blockId "Region_1".toList = .ok 1 ∧ blockNameToBlockId "Region_1".toList = .ok 0 :=
  ⟨C57_analysis "Region".toList 1 (by norm_num), by decide⟩

/-! ### The blocks of an analysis -/

variable {P : Type}

/-- The names a definition lists, without the default. -/
def listed (names : List String) : List String :=
  names.filter fun n => ¬ (n = "Default" ∨ n = "default")

/-- The definition is (also) the default. -/
def IsDefault (d : BlockDef P) : Prop := "Default" ∈ d.names ∨ "default" ∈ d.names

theorem names_fold (p : P) (names : List String) (s s' : Collected P)
    (h : names.foldlM (collectName p) s = .ok s') :
    s'.blocks.map Block.name = s.blocks.map Block.name ++ listed names ∧
    (∀ b ∈ s'.blocks, b ∈ s.blocks ∨ (b.name ∈ listed names ∧ b.params = p ∧
      blockId b.name.toList = .ok b.id)) ∧
    ((s'.default = s.default ∧ "Default" ∉ names ∧ "default" ∉ names) ∨
      (s'.default = some p ∧ ("Default" ∈ names ∨ "default" ∈ names))) := by
  induction names generalizing s with
  | nil => cases BC.ok_inj h; simp [listed]
  | cons n names ih =>
    obtain ⟨s1, h1, h2⟩ := BC.foldlM_cons_ok.mp h
    obtain ⟨i1, i2, i3⟩ := ih s1 h2
    unfold collectName at h1
    split at h1
    · rename_i hn
      cases BC.ok_inj h1
      have hl : listed (n :: names) = listed names := by
        unfold listed
        rw [List.filter_cons_of_neg (by simp only [decide_not, Bool.not_eq_true, Bool.not_eq_false', decide_eq_true_eq]; exact hn)]
      rw [hl]
      refine ⟨i1, i2, Or.inr ⟨?_, ?_⟩⟩
      · rcases i3 with i3 | i3
        · exact i3.1
        · exact i3.1
      · rcases hn with rfl | rfl
        · exact Or.inl (by simp)
        · exact Or.inr (by simp)
    · rename_i hn
      obtain ⟨i, h3, h4⟩ := Outcome.bind_eq_ok.mp h1
      cases BC.ok_inj h4
      have hl : listed (n :: names) = n :: listed names := by
        unfold listed
        rw [List.filter_cons_of_pos (by simpa using hn)]
      rw [hl]
      rw [not_or] at hn
      refine ⟨?_, ?_, ?_⟩
      · rw [i1]; simp
      · intro b hb
        rcases i2 b hb with i2 | i2
        · simp only [List.mem_append, List.mem_singleton] at i2
          rcases i2 with i2 | rfl
          · exact Or.inl i2
          · exact Or.inr ⟨by simp, rfl, h3⟩
        · exact Or.inr ⟨by simp [i2.1], i2.2⟩
      · rcases i3 with ⟨i3, i4, i5⟩ | ⟨i3, i4⟩
        · exact Or.inl ⟨i3, by simp [i4, Ne.symm hn.1], by simp [i5, Ne.symm hn.2]⟩
        · exact Or.inr ⟨i3, by rcases i4 with i4 | i4 <;> simp [i4]⟩

theorem defs_fold (ds : List (BlockDef P)) (s s' : Collected P) (h : ds.foldlM collectDef s = .ok s') :
    s'.blocks.map Block.name = s.blocks.map Block.name ++ ds.flatMap (fun d => listed d.names) ∧
    (∀ b ∈ s'.blocks, b ∈ s.blocks ∨ ((∃ d ∈ ds, b.name ∈ d.names ∧ b.params = d.params) ∧
      blockId b.name.toList = .ok b.id)) ∧
    ((s'.default = s.default ∧ ∀ d ∈ ds, ¬ IsDefault d) ∨
      ∃ d ∈ ds, IsDefault d ∧ s'.default = some d.params) := by
  induction ds generalizing s with
  | nil => cases BC.ok_inj h; simp
  | cons d ds ih =>
    obtain ⟨s1, h1, h2⟩ := BC.foldlM_cons_ok.mp h
    obtain ⟨i1, i2, i3⟩ := ih s1 h2
    obtain ⟨j1, j2, j3⟩ := names_fold d.params d.names s s1 h1
    refine ⟨?_, ?_, ?_⟩
    · rw [i1, j1]; simp
    · intro b hb
      rcases i2 b hb with i2 | ⟨⟨d', k1, k2⟩, k3⟩
      · rcases j2 b i2 with j2 | ⟨j2, j4, j5⟩
        · exact Or.inl j2
        · exact Or.inr ⟨⟨d, by simp, List.mem_of_mem_filter j2, j4⟩, j5⟩
      · exact Or.inr ⟨⟨d', by simp [k1], k2⟩, k3⟩
    · rcases i3 with ⟨i3, i4⟩ | ⟨d', k1, k2, k3⟩
      · rcases j3 with ⟨j3, j4, j5⟩ | ⟨j3, j4⟩
        · refine Or.inl ⟨i3.trans j3, ?_⟩
          intro d' hd'
          rcases List.mem_cons.mp hd' with rfl | hd'
          · exact not_or.mpr ⟨j4, j5⟩
          · exact i4 d' hd'
        · exact Or.inr ⟨d, by simp, j4, i3.trans j3⟩
      · exact Or.inr ⟨d', by simp [k1], k2, k3⟩

theorem default_fold (p : P) (mesh : List String) (bs bs' : List (Block P))
    (h : mesh.foldlM (addDefault p) bs = .ok bs') :
    (∀ n ∈ mesh, n ∈ bs'.map Block.name) ∧ (∀ b ∈ bs, b ∈ bs') ∧
    (∀ b ∈ bs', b ∈ bs ∨ (b.name ∉ bs.map Block.name ∧ b.params = p ∧
      blockId b.name.toList = .ok b.id)) := by
  induction mesh generalizing bs with
  | nil =>
    cases BC.ok_inj h
    exact ⟨fun _ h => absurd h (by simp), fun _ h => h, fun _ h => Or.inl h⟩
  | cons n mesh ih =>
    obtain ⟨b1, h1, h2⟩ := BC.foldlM_cons_ok.mp h
    obtain ⟨i1, i2, i3⟩ := ih b1 h2
    unfold addDefault at h1
    split at h1
    · rename_i hn
      cases BC.ok_inj h1
      refine ⟨?_, i2, i3⟩
      intro m hm
      rcases List.mem_cons.mp hm with rfl | hm
      · obtain ⟨b, hb, rfl⟩ := List.mem_map.mp hn
        exact List.mem_map.mpr ⟨b, i2 b hb, rfl⟩
      · exact i1 m hm
    · rename_i hn
      obtain ⟨i, h3, h4⟩ := Outcome.bind_eq_ok.mp h1
      cases BC.ok_inj h4
      refine ⟨?_, fun b hb => i2 b (by simp [hb]), ?_⟩
      · intro m hm
        rcases List.mem_cons.mp hm with rfl | hm
        · exact List.mem_map.mpr ⟨_, i2 ⟨m, i, p⟩ (by simp), rfl⟩
        · exact i1 m hm
      · intro b hb
        rcases i3 b hb with k | ⟨k1, k2⟩
        · simp only [List.mem_append, List.mem_singleton] at k
          rcases k with k | rfl
          · exact Or.inl k
          · exact Or.inr ⟨hn, rfl, h3⟩
        · refine Or.inr ⟨fun hc => k1 ?_, k2⟩
          simp only [List.map_append, List.mem_append]
          exact Or.inl hc

/-- **C85**: if the input has a default definition, or names no block twice, then the blocks of the
analysis are in one-to-one correspondence with those of the mesh. -/
theorem C85_one_to_one_partial (mesh : List String) (ds : List (BlockDef P)) (bs : List (Block P))
    (hm : mesh.Nodup) (h : initializeBlocks mesh ds = .ok bs)
    (hd : (∃ d ∈ ds, IsDefault d) ∨ (ds.flatMap fun d => listed d.names).Nodup) :
    (bs.map Block.name).Perm mesh := by
  unfold initializeBlocks at h
  obtain ⟨s, h1, h⟩ := Outcome.bind_eq_ok.mp h
  obtain ⟨bs', h2, h⟩ := Outcome.bind_eq_ok.mp h
  split at h
  · exact absurd h (by simp)
  rename_i he
  cases BC.ok_inj h
  unfold blockError at he
  simp only [Bool.or_eq_true, decide_eq_true_eq, not_or, not_not, Bool.not_eq_true,
    List.any_eq_false] at he
  obtain ⟨he1, he2⟩ := he
  have hsub : ∀ n ∈ bs.map Block.name, n ∈ mesh := by
    intro n hn
    obtain ⟨b, hb, rfl⟩ := List.mem_map.mp hn
    exact he2 b hb
  obtain ⟨d1, d2, d3⟩ := defs_fold ds _ s h1
  unfold addDefaults at h2
  rcases hd with ⟨d, hd, hdd⟩ | hnd
  · rcases d3 with ⟨_, d3⟩ | ⟨d', _, _, d3⟩
    · exact absurd hdd (d3 d hd)
    · rw [d3] at h2
      obtain ⟨e1, _, _⟩ := default_fold d'.params mesh _ _ h2
      have : mesh.Subperm (bs.map Block.name) := hm.subperm fun n hn => e1 n hn
      exact (this.perm_of_length_le (by rw [List.length_map]; omega)).symm
  · by_cases hx : ∃ d ∈ ds, IsDefault d
    · obtain ⟨d, hd, hdd⟩ := hx
      rcases d3 with ⟨_, d3⟩ | ⟨d', _, _, d3⟩
      · exact absurd hdd (d3 d hd)
      · rw [d3] at h2
        obtain ⟨e1, _, _⟩ := default_fold d'.params mesh _ _ h2
        have : mesh.Subperm (bs.map Block.name) := hm.subperm fun n hn => e1 n hn
        exact (this.perm_of_length_le (by rw [List.length_map]; omega)).symm
    · rcases d3 with ⟨d3, _⟩ | ⟨d', k1, k2, _⟩
      · rw [d3] at h2
        cases BC.ok_inj h2
        have hn : (s.blocks.map Block.name).Nodup := by
          rw [d1]; simpa using hnd
        have : (s.blocks.map Block.name).Subperm mesh := hn.subperm hsub
        exact this.perm_of_length_le (by rw [List.length_map]; omega)
      · exact absurd ⟨d', k1, k2⟩ hx

/-- **C85**: every block of the analysis belongs to the mesh, carries the number in its name, and has the
parameters of a definition that names it or, if none does, of a default definition. -/
theorem C85_parameters (mesh : List String) (ds : List (BlockDef P)) (bs : List (Block P))
    (h : initializeBlocks mesh ds = .ok bs) (b : Block P) (hb : b ∈ bs) :
    b.name ∈ mesh ∧ blockId b.name.toList = .ok b.id ∧
    ((∃ d ∈ ds, b.name ∈ d.names ∧ b.params = d.params) ∨
      ((∀ d ∈ ds, b.name ∉ d.names) ∧ ∃ d ∈ ds, IsDefault d ∧ b.params = d.params)) := by
  unfold initializeBlocks at h
  obtain ⟨s, h1, h⟩ := Outcome.bind_eq_ok.mp h
  obtain ⟨bs', h2, h⟩ := Outcome.bind_eq_ok.mp h
  split at h
  · exact absurd h (by simp)
  rename_i he
  cases BC.ok_inj h
  unfold blockError at he
  simp only [Bool.or_eq_true, decide_eq_true_eq, not_or, not_not, Bool.not_eq_true,
    List.any_eq_false] at he
  obtain ⟨d1, d2, d3⟩ := defs_fold ds _ s h1
  have hmesh := he.2 b hb
  refine ⟨hmesh, ?_⟩
  unfold addDefaults at h2
  have old : ∀ b ∈ s.blocks, blockId b.name.toList = .ok b.id ∧
      ∃ d ∈ ds, b.name ∈ d.names ∧ b.params = d.params := by
    intro b hb
    rcases d2 b hb with d2 | d2
    · exact absurd d2 (by simp)
    · exact ⟨d2.2, d2.1⟩
  rcases d3 with ⟨d3, _⟩ | ⟨d', k1, k2, d3⟩
  · rw [d3] at h2
    cases BC.ok_inj h2
    obtain ⟨o1, o2⟩ := old b hb
    exact ⟨o1, Or.inl o2⟩
  · rw [d3] at h2
    obtain ⟨_, _, e3⟩ := default_fold d'.params mesh _ _ h2
    rcases e3 b hb with e3 | ⟨e3, e4, e5⟩
    · obtain ⟨o1, o2⟩ := old b e3
      exact ⟨o1, Or.inl o2⟩
    · refine ⟨e5, Or.inr ⟨?_, d', k1, k2, e4⟩⟩
      intro d hd hc
      apply e3
      rw [d1]
      simp only [List.map_nil, List.nil_append, List.mem_flatMap]
      refine ⟨d, hd, List.mem_filter.mpr ⟨hc, ?_⟩⟩
      have hne : ¬ (b.name = "Default" ∨ b.name = "default") := by
        have n1 : blockId "Default".toList = .fail .runtimeError := by decide
        have n2 : blockId "default".toList = .fail .runtimeError := by decide
        rintro (hn | hn)
        · rw [hn, n1] at e5; exact absurd e5 (by simp)
        · rw [hn, n2] at e5; exact absurd e5 (by simp)
      simpa using hne

/-- One block named, one by default. -/
def demoBlocks : List (BlockDef Nat) := [⟨1, ["block_1"]⟩, ⟨2, ["default"]⟩]

theorem collect_block {p : Nat} {s : Collected Nat} {name : String} {i : ℤ}
    (hn : ¬ (name = "Default" ∨ name = "default")) (hi : blockId name.toList = .ok i) :
    collectName p s name = .ok { s with blocks := s.blocks ++ [⟨name, i, p⟩] } := by
  unfold collectName
  rw [if_neg hn, hi]
  rfl

theorem demo_ok : initializeBlocks ["block_1", "block_2"] demoBlocks =
    .ok [⟨"block_1", 1, 1⟩, ⟨"block_2", 2, 2⟩] := by
  have h1 : blockId "block_1".toList = .ok 1 := C57_analysis "block".toList 1 (by norm_num)
  have h2 : blockId "block_2".toList = .ok 2 := C57_analysis "block".toList 2 (by norm_num)
  have c1 : demoBlocks.foldlM collectDef ⟨[], none⟩ =
      .ok (⟨[⟨"block_1", 1, 1⟩], some 2⟩ : Collected Nat) := by
    refine BC.foldlM_cons_ok.mpr ⟨⟨[⟨"block_1", 1, 1⟩], none⟩, ?_, ?_⟩
    · exact BC.foldlM_cons_ok.mpr ⟨_, collect_block (by decide) h1, rfl⟩
    · refine BC.foldlM_cons_ok.mpr ⟨_, BC.foldlM_cons_ok.mpr ⟨_, if_pos (Or.inr rfl), rfl⟩, rfl⟩
  have c2 : addDefaults ["block_1", "block_2"] (⟨[⟨"block_1", 1, 1⟩], some 2⟩ : Collected Nat) =
      .ok [⟨"block_1", 1, 1⟩, ⟨"block_2", 2, 2⟩] := by
    refine BC.foldlM_cons_ok.mpr ⟨_, if_pos (by simp), BC.foldlM_cons_ok.mpr ⟨_, ?_, rfl⟩⟩
    unfold addDefault
    rw [if_neg (by simp), h2]
    rfl
  unfold initializeBlocks
  rw [c1, Outcome.ok_bind, c2, Outcome.ok_bind, if_neg]
  simp [blockError]

example : ["block_1", "block_2"].Nodup ∧ initializeBlocks ["block_1", "block_2"] demoBlocks =
    .ok [⟨"block_1", 1, 1⟩, ⟨"block_2", 2, 2⟩] ∧ (∃ d ∈ demoBlocks, IsDefault d) :=
  ⟨by decide, demo_ok, ⟨2, ["default"]⟩, by simp [demoBlocks], Or.inr (by simp)⟩

/-- A run that is accepted has exactly the blocks of the mesh. -/
def OneToOne : Prop :=
  ∀ (mesh : List String) (ds : List (BlockDef Nat)) (bs : List (Block Nat)), mesh.Nodup →
    initializeBlocks mesh ds = .ok bs → (bs.map Block.name).Perm mesh

/-- **C85 is false of the code**: an input that names one block twice and leaves another out is
accepted, and the other is missing from the analysis. -/
theorem C85_fails : ¬ OneToOne := by
  intro H
  have h1 : blockId "block_1".toList = .ok 1 := C57_analysis "block".toList 1 (by norm_num)
  have h := H ["block_1", "block_2"] [⟨1, ["block_1", "block_1"]⟩]
    [⟨"block_1", 1, 1⟩, ⟨"block_1", 1, 1⟩] (by decide)
    (by
      have c1 : [(⟨1, ["block_1", "block_1"]⟩ : BlockDef Nat)].foldlM collectDef ⟨[], none⟩ =
          .ok (⟨[⟨"block_1", 1, 1⟩, ⟨"block_1", 1, 1⟩], none⟩ : Collected Nat) := by
        refine BC.foldlM_cons_ok.mpr ⟨_, ?_, rfl⟩
        exact BC.foldlM_cons_ok.mpr ⟨_, collect_block (by decide) h1,
          BC.foldlM_cons_ok.mpr ⟨_, collect_block (by decide) h1, rfl⟩⟩
      unfold initializeBlocks
      rw [c1, Outcome.ok_bind]
      unfold addDefaults
      rw [Outcome.ok_bind, if_neg (by simp [blockError])])
  have := h.mem_iff (a := "block_2")
  simp at this

end Verif.Params
