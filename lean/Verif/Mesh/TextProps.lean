import Verif.Mesh.BlockLemmas

/-!
# C126, C127: meshes read from text files
-/

noncomputable section

namespace Verif.Mesh

open Verif Verif.Mech

/-! ### An example: numbers of one digit -/

/-- Reads a digit after blanks. -/
def digitScan (text : List Char) : Option (ℝ × List Char) :=
  match drop text with
  | [] => none
  | c :: rest => if c.isDigit then some (((c.toNat - 48 : Nat) : ℝ), rest) else none

theorem drop_length (text : List Char) : (drop text).length ≤ text.length := by
  obtain ⟨a, h, _⟩ := drop_split text
  conv_rhs => rw [h]
  simp

theorem digitScan_progress (text : List Char) (v : ℝ) (rest : List Char) (h : digitScan text = some (v, rest)) :
    rest.length < text.length := by
  rw [digitScan] at h
  have hl := drop_length text
  cases hd : drop text with
  | nil => rw [hd] at h; cases h
  | cons c r =>
    rw [hd] at h hl
    simp only at h
    by_cases hc : c.isDigit = true
    · rw [if_pos hc] at h
      injection h with h
      injection h with h1 h2
      rw [← h2]
      simpa using hl
    · rw [if_neg hc] at h; cases h

theorem digitScan_blank (text : List Char) (h : ∀ c ∈ text, c = ' ') : digitScan text = none := by
  have : text = List.replicate text.length ' ' := List.eq_replicate_iff.mpr ⟨rfl, h⟩
  rw [digitScan, this, ← List.append_nil (List.replicate _ _), drop_blanks]
  rfl

theorem digitScan_cons (c : Char) (rest : List Char) (hc : c.isDigit = true) (n : Nat) (hn : c.toNat - 48 = n) :
    digitScan (c :: rest) = some ((n : ℝ), rest) := by
  have hne : c ≠ ' ' := by rintro rfl; revert hc; decide
  rw [digitScan, drop_cons _ hne]
  simp only
  rw [if_pos hc, hn]

theorem digitScan_blank_cons (c : Char) (rest : List Char) (hc : c.isDigit = true) (n : Nat) (hn : c.toNat - 48 = n) :
    digitScan (' ' :: c :: rest) = some ((n : ℝ), rest) := by
  have := digitScan_cons c rest hc n hn
  rw [digitScan] at this ⊢
  rwa [show drop (' ' :: c :: rest) = drop (c :: rest) from drop_blanks 1 _]

/-- A line with a point of block 1. -/
def dataLine : List Char := [' ', '2', ' ', '0', ' ', '7', ' ', '1', ' ', '5', ' ', 'm']

def dataPoint : TextPoint := ⟨![2, 0, 7], 1, 5⟩

theorem dataLine_has : Has digitScan dataLine [2, 0, 7, 1, 5] := by
  refine ⟨1, ['2', ' ', '0', ' ', '7', ' ', '1', ' ', '5', ' ', 'm'], 0, rfl,
    ⟨⟨'2', [' ', '0', ' ', '7', ' ', '1', ' ', '5', ' ', 'm'], rfl, by decide⟩,
      ['2', ' ', '0', ' ', '7', ' ', '1', ' ', '5', ' '], 'm', rfl, by decide⟩, ?_, ?_⟩
  · intro c t h hs
    injection h with h1 h2
    subst h1
    revert hs
    unfold CommentStart
    decide
  · refine .more _ 2 [' ', '0', ' ', '7', ' ', '1', ' ', '5', ' ', 'm'] _ ?_ (by decide) ?_
    · rw [digitScan_cons _ _ (by decide) 2 (by decide)]; norm_num
    refine .more _ 0 [' ', '7', ' ', '1', ' ', '5', ' ', 'm'] _ ?_ (by decide) ?_
    · rw [digitScan_blank_cons _ _ (by decide) 0 (by decide)]; norm_num
    refine .more _ 7 [' ', '1', ' ', '5', ' ', 'm'] _ ?_ (by decide) ?_
    · rw [digitScan_blank_cons _ _ (by decide) 7 (by decide)]; norm_num
    refine .more _ 1 [' ', '5', ' ', 'm'] _ ?_ (by decide) ?_
    · rw [digitScan_blank_cons _ _ (by decide) 1 (by decide)]; norm_num
    refine .more _ 5 [' ', 'm'] _ ?_ (by decide) ?_
    · rw [digitScan_blank_cons _ _ (by decide) 5 (by decide)]; norm_num
    exact .stop _ (by simp [digitScan, drop])

theorem dataLine_says : Says digitScan dataLine (some dataPoint) := by
  refine ⟨1, ?_, ?_⟩
  · have := dataLine_has
    simpa [dataPoint] using this
  · simp only [WholePart, dataPoint]; norm_num

def commentLine : List Char := [' ', '#', 'x']

theorem commentLine_says : Says digitScan commentLine none :=
  Or.inr ⟨1, '#', ['x'], rfl, Or.inl rfl⟩

/-! ### C126 -/

/-- **C126.** A text file whose lines each say nothing or a point is read: the points are those of the lines, in the
order of the file, with the numbers 0, 1, 2, … as global ids. -/
theorem C126_points (scan : List Char → Option (ℝ × List Char)) (ls : List (List Char)) (hne : ls ≠ [])
    (hl : ∀ l ∈ ls, '\n' ∉ l) (ms : List (Option TextPoint)) (h : List.Forall₂ (Says scan) ls ms)
    (hsome : ∃ p, some p ∈ ms) :
    ∃ mesh, readTextMesh scan (some (List.intercalate ['\n'] ls)) = .ok mesh ∧
      mesh.map Prod.snd = ms.filterMap id ∧ mesh.map Prod.fst = List.range mesh.length := by
  have hf : ms.flatMap Option.toList = ms.filterMap id := by
    clear h hsome
    induction ms with
    | nil => rfl
    | cons m ms ih => cases m <;> simp [ih]
  rw [readTextMesh]
  rw [fileLines_join ls hne hl, readLines_says h]
  simp only [Outcome.ok_bind]
  rw [hf]
  have hlen : ¬ (ms.filterMap id).length < 1 := by
    obtain ⟨p, hp⟩ := hsome
    have : p ∈ ms.filterMap id := List.mem_filterMap.mpr ⟨some p, hp, rfl⟩
    have := List.length_pos_of_mem this
    omega
  rw [if_neg hlen]
  refine ⟨_, rfl, ?_, ?_⟩
  · rw [List.map_snd_zip (by simp)]
  · rw [List.map_fst_zip (by simp)]
    simp

example : List.Forall₂ (Says digitScan) [commentLine, dataLine, []] [none, some dataPoint, none] ∧
    (∀ l ∈ [commentLine, dataLine, []], '\n' ∉ l) ∧ ∃ p, some p ∈ [none, some dataPoint, none] :=
  ⟨.cons commentLine_says (.cons dataLine_says (.cons (Or.inl rfl) .nil)), by decide, dataPoint, by simp⟩

/-- **C126.** Nothing else is accepted: if a file is read, every line says nothing or a point, and the mesh has the
points of the lines in their order. -/
theorem C126_sound (scan : List Char → Option (ℝ × List Char))
    (hscan : ∀ text v rest, scan text = some (v, rest) → rest.length < text.length)
    (hblank : ∀ text, (∀ c ∈ text, c = ' ') → scan text = none)
    (ls : List (List Char)) (hne : ls ≠ []) (hl : ∀ l ∈ ls, '\n' ∉ l) (mesh : List (Nat × TextPoint))
    (h : readTextMesh scan (some (List.intercalate ['\n'] ls)) = .ok mesh) :
    ∃ ms : List (Option TextPoint), List.Forall₂ (Says scan) ls ms ∧ mesh.map Prod.snd = ms.filterMap id ∧
      mesh ≠ [] := by
  have hf : ∀ ms : List (Option TextPoint), ms.flatMap Option.toList = ms.filterMap id := by
    intro ms
    induction ms with
    | nil => rfl
    | cons m ms ih => cases m <;> simp [ih]
  rw [readTextMesh] at h
  rw [fileLines_join ls hne hl] at h
  obtain ⟨ps, h1, h⟩ := Outcome.bind_eq_ok.mp h
  obtain ⟨ms, hms, hps⟩ := readLines_ok hscan hblank h1
  by_cases hlen : ps.length < 1
  · rw [if_pos hlen] at h; cases h
  · rw [if_neg hlen] at h
    injection h with h
    refine ⟨ms, hms, ?_, ?_⟩
    · rw [← h, List.map_snd_zip (by simp), hps, hf]
    · intro hm
      rw [hm] at h
      have := congrArg List.length h
      rw [List.length_zip, List.length_range, Nat.min_self, List.length_nil] at this
      omega

example : (∀ text v rest, digitScan text = some (v, rest) → rest.length < text.length) ∧
    (∀ text, (∀ c ∈ text, c = ' ') → digitScan text = none) ∧
    ∃ mesh, readTextMesh digitScan (some (List.intercalate ['\n'] [commentLine, dataLine])) = .ok mesh := by
  refine ⟨digitScan_progress, digitScan_blank, ?_⟩
  obtain ⟨mesh, h, _⟩ := C126_points digitScan [commentLine, dataLine] (by simp) (by decide) [none, some dataPoint]
    (.cons commentLine_says (.cons dataLine_says .nil)) ⟨dataPoint, by simp⟩
  exact ⟨mesh, h⟩

/-- **C126.** The whole number of the block is what stands before the decimal point, and there is only one. -/
theorem C126_block_unique (v : ℝ) (m n : Int) (h1 : WholePart v m) (h2 : WholePart v n) : m = n := by
  have := (toInt_ok.mpr h1).symm.trans (toInt_ok.mpr h2)
  injection this

example : WholePart 1.9 1 ∧ WholePart (-1.9) (-1) ∧ WholePart (-0.5) 0 := by
  refine ⟨?_, ?_, ?_⟩ <;> (unfold WholePart; norm_num [abs_of_pos, abs_of_neg])

/-- **C126.** A line with more or fewer than five numbers ends the program. -/
theorem C126_refused (scan : List Char → Option (ℝ × List Char)) (pre post : List (List Char)) (line : List Char)
    (hl : ∀ l ∈ pre ++ line :: post, '\n' ∉ l) (ms : List (Option TextPoint))
    (h : List.Forall₂ (Says scan) pre ms) (vs : List ℝ) (hv : Has scan line vs) (h5 : vs.length ≠ 5) :
    readTextMesh scan (some (List.intercalate ['\n'] (pre ++ line :: post))) = .fail .terminate := by
  rw [readTextMesh]
  rw [fileLines_join _ (by simp) hl]
  have hline : readLine scan line = .fail .terminate := by
    obtain ⟨h1, h2⟩ := has_trim hv
    rw [readLine, if_neg (by rw [h1]; simp), h2]
    rcases vs with _ | ⟨x, _ | ⟨y, _ | ⟨z, _ | ⟨w, _ | ⟨v, _ | ⟨q, vs⟩⟩⟩⟩⟩⟩ <;> first | rfl | exact absurd rfl h5
  rw [readLines_fail h hline post]
  rfl

example : Has digitScan ['3'] [3] ∧ [(3 : ℝ)].length ≠ 5 := by
  refine ⟨⟨0, ['3'], 0, rfl, ⟨⟨'3', [], rfl, by decide⟩, [], '3', rfl, by decide⟩, ?_, ?_⟩, by simp⟩
  · intro c t h hs
    injection h with h1 h2
    subst h1
    revert hs
    unfold CommentStart
    decide
  · refine .more _ 3 [] _ ?_ (by decide) (.stop _ rfl)
    rw [digitScan_cons _ _ (by decide) 3 (by decide)]; norm_num

/-- **C126.** A file that cannot be opened, or that has no point, ends the program. -/
theorem C126_empty (scan : List Char → Option (ℝ × List Char)) (ls : List (List Char)) (hne : ls ≠ [])
    (hl : ∀ l ∈ ls, '\n' ∉ l) (hs : ∀ l ∈ ls, Silent l) :
    readTextMesh scan none = .fail .terminate ∧
    readTextMesh scan (some (List.intercalate ['\n'] ls)) = .fail .terminate := by
  refine ⟨rfl, ?_⟩
  rw [readTextMesh]
  have h : List.Forall₂ (Says scan) ls (ls.map fun _ => none) := by
    clear hne hl
    induction ls with
    | nil => exact .nil
    | cons l ls ih => exact .cons (hs l (by simp)) (ih fun x hx => hs x (List.mem_cons_of_mem _ hx))
  have h0 : (ls.map fun _ => (none : Option TextPoint)).flatMap Option.toList = [] := by
    simp
  rw [fileLines_join ls hne hl, readLines_says h, h0]
  rfl

example : Silent commentLine ∧ Silent [] := ⟨Or.inr ⟨1, '#', ['x'], rfl, Or.inl rfl⟩, Or.inl rfl⟩

/-- **C126.** The claim is broken for blank lines: a line of one or more blanks, unlike an empty one, ends the
program. -/
theorem C126_broken (scan : List Char → Option (ℝ × List Char))
    (hblank : ∀ text, (∀ c ∈ text, c = ' ') → scan text = none) (pre post : List (List Char)) (n : Nat)
    (hl : ∀ l ∈ pre ++ List.replicate (n + 1) ' ' :: post, '\n' ∉ l) (ms : List (Option TextPoint))
    (h : List.Forall₂ (Says scan) pre ms) :
    readTextMesh scan (some (List.intercalate ['\n'] (pre ++ List.replicate (n + 1) ' ' :: post))) =
      .fail .terminate := by
  rw [readTextMesh]
  rw [fileLines_join _ (by simp) hl]
  have hall : ∀ c ∈ List.replicate (n + 1) ' ', c = ' ' := fun c hc => List.eq_of_mem_replicate hc
  have hline : readLine scan (List.replicate (n + 1) ' ') = .fail .terminate := by
    have ht : trim (List.replicate (n + 1) ' ') = List.replicate (n + 1) ' ' := by
      rw [trim, if_pos]
      exact List.all_eq_true.mpr fun c hc => by simpa using hall c hc
    have hc : ¬ isComment (List.replicate (n + 1) ' ') = true := by
      rw [List.replicate_succ]; simp [isComment]
    rw [readLine, ht, if_neg hc]
    have : readNumbers scan (List.replicate (n + 1) ' ').length (List.replicate (n + 1) ' ') = [] := by
      rw [List.length_replicate]
      simp [readNumbers, hblank _ hall]
    rw [this]
  rw [readLines_fail h hline post]
  rfl

example : readTextMesh digitScan (some (List.intercalate ['\n'] ([dataLine] ++ List.replicate (0 + 1) ' ' :: []))) =
    .fail .terminate :=
  C126_broken digitScan digitScan_blank [dataLine] [] 0 (by decide) [some dataPoint] (.cons dataLine_says .nil)

/-! ### C127 -/

/-- **C127.** Different blocks have different names. -/
theorem C127_names (a b : Int) (h : intName a = intName b) : a = b := intName_inj h

example : intName 4 = "block_4" ∧ intName (-1) = "block_-1" := by decide

/-- **C127.** If the blocks' numbers have at most six digits, every processor has an entry for every block of the file,
also for those of which it has no points, and the entry has exactly the processor's points of that block, in the order in
which the processor has them. -/
theorem C127_blocks_partial (mesh : List (Nat × TextPoint)) (hn : (mesh.map Prod.fst).Nodup)
    (own : List Nat) (hown : ∀ g ∈ own, ∃ p, (g, p) ∈ mesh)
    (hsmall : ∀ e ∈ mesh, -999999 ≤ e.2.block ∧ e.2.block ≤ 999999) :
    ∃ blocks, textBlocks mesh own = .ok blocks ∧
      (∀ name, name ∈ blocks.map Prod.fst ↔ ∃ e ∈ mesh, name = intName e.2.block) ∧
      (blocks.map Prod.fst).Nodup ∧
      ∀ e ∈ mesh, ∃ ids, blocks.lookup (intName e.2.block) = some ids ∧ List.Sublist ids own ∧
        ∀ g p, (g, p) ∈ mesh → (g ∈ ids ↔ g ∈ own ∧ p.block = e.2.block) := by
  obtain ⟨h1, h2⟩ := init_facts mesh
  obtain ⟨m, h3, h4, h5⟩ := fillBlocks_ok (blockOf mesh) (uniqueBlocks mesh) own _ (fun _ => []) h1 h2
    (fun g hg => by
      obtain ⟨p, hp⟩ := hown g hg
      rw [blockOf_eq hn hp]
      exact mem_uniqueBlocks.mpr ⟨_, hp, rfl⟩)
    (fun g hg => by
      obtain ⟨p, hp⟩ := hown g hg
      rw [blockOf_eq hn hp]
      have := hsmall _ hp
      simp only at this
      omega)
  refine ⟨m, h3, ?_, ?_, ?_⟩
  · intro name
    rw [h4, List.mem_map]
    constructor
    · rintro ⟨b, hb, rfl⟩
      obtain ⟨e, he, rfl⟩ := mem_uniqueBlocks.mp hb
      exact ⟨e, he, rfl⟩
    · rintro ⟨e, he, rfl⟩
      exact ⟨_, mem_uniqueBlocks.mpr ⟨e, he, rfl⟩, rfl⟩
  · rw [h4]
    exact (nodup_uniqueBlocks mesh).map fun _ _ h => intName_inj h
  · intro e he
    refine ⟨_, h5 _ (mem_uniqueBlocks.mpr ⟨e, he, rfl⟩), ?_, ?_⟩
    · rw [List.nil_append]; exact List.filter_sublist
    · intro g p hp
      rw [List.nil_append, List.mem_filter, blockOf_eq hn hp]
      simp

def twoPoints : List (Nat × TextPoint) := [(0, ⟨![0, 0, 0], 7, 1⟩), (1, ⟨![1, 0, 0], -3, 1⟩)]

example : (twoPoints.map Prod.fst).Nodup ∧ (∀ g ∈ [1], ∃ p, (g, p) ∈ twoPoints) ∧
    ∀ e ∈ twoPoints, -999999 ≤ e.2.block ∧ e.2.block ≤ 999999 := by
  refine ⟨by simp [twoPoints], ?_, ?_⟩
  · intro g hg
    simp only [List.mem_singleton] at hg
    subst hg
    exact ⟨_, List.mem_cons_of_mem _ (List.mem_singleton.mpr rfl)⟩
  · intro e he
    simp only [twoPoints, List.mem_cons, List.not_mem_nil, or_false] at he
    rcases he with rfl | rfl <;> norm_num

/-- **C127.** The claim is broken for blocks whose number has seven digits or more: the number is printed in scientific
notation, no entry of that name exists, and the program ends on every processor with a point of such a block. -/
theorem C127_broken (mesh : List (Nat × TextPoint)) (hn : (mesh.map Prod.fst).Nodup) (own : List Nat)
    (g : Nat) (p : TextPoint) (hg : g ∈ own) (hp : (g, p) ∈ mesh)
    (hlarge : p.block < -999999 ∨ 999999 < p.block) : textBlocks mesh own = .fail .terminate := by
  obtain ⟨h1, _⟩ := init_facts mesh
  refine fillBlocks_large (blockOf mesh) (uniqueBlocks mesh) own _ h1 ⟨g, hg, ?_⟩
  rw [blockOf_eq hn hp]
  omega

example : textBlocks [(0, ⟨![0, 0, 0], 1000000, 1⟩)] [0] = .fail .terminate :=
  C127_broken _ (by simp) _ 0 ⟨![0, 0, 0], 1000000, 1⟩ (by simp) (by simp) (Or.inr (by norm_num))

/-- How the numbers are printed. -/
example : doubleName 1000000 = "block_1e+06" ∧ doubleName 1234567 = "block_1.23457e+06" ∧
    doubleName (-20000000) = "block_-2e+07" := by
  decide +kernel

end Verif.Mesh
