import Verif.Mesh.TextSpec
import Mathlib.Data.List.Basic
import Mathlib.Tactic.Linarith
import Std.Data.String.ToInt

/-!
# Lemmas on text meshes
-/

noncomputable section

namespace Verif.Mesh

open Verif Verif.Mech
open scoped Classical

/-! ### Blanks at the ends -/

def drop (s : List Char) : List Char := s.dropWhile (· = ' ')

theorem drop_blanks (a : Nat) (t : List Char) : drop (List.replicate a ' ' ++ t) = drop t := by
  induction a with
  | zero => simp
  | succ n ih => rw [List.replicate_succ, List.cons_append]; simp only [drop] at ih ⊢; rw [List.dropWhile_cons]; simp [ih]

theorem drop_cons {c : Char} (t : List Char) (h : c ≠ ' ') : drop (c :: t) = c :: t := by
  simp [drop, List.dropWhile_cons, h]

theorem drop_snoc (u : List Char) {c : Char} (h : c ≠ ' ') : drop (u ++ [c]) = drop u ++ [c] := by
  induction u with
  | nil => simp [drop, List.dropWhile_cons, h]
  | cons x u ih =>
    by_cases hx : x = ' '
    · simp only [drop, List.cons_append, List.dropWhile_cons, hx] at ih ⊢; simpa using ih
    · rw [List.cons_append, drop_cons _ hx, drop_cons _ hx, List.cons_append]

theorem drop_split (s : List Char) :
    ∃ a, s = List.replicate a ' ' ++ drop s ∧ (drop s = [] ∨ ∃ c t, drop s = c :: t ∧ c ≠ ' ') := by
  induction s with
  | nil => exact ⟨0, by simp [drop], Or.inl (by simp [drop])⟩
  | cons x s ih =>
    by_cases hx : x = ' '
    · obtain ⟨a, h1, h2⟩ := ih
      have hd : drop (x :: s) = drop s := by simp [drop, List.dropWhile_cons, hx]
      refine ⟨a + 1, ?_, by rw [hd]; exact h2⟩
      rw [hd, List.replicate_succ, List.cons_append, ← h1, hx]
    · exact ⟨0, by simp [drop_cons _ hx], Or.inr ⟨x, s, drop_cons _ hx, hx⟩⟩

theorem trim_of_not {s : List Char} {c : Char} (hc : c ∈ s) (h : c ≠ ' ') :
    trim s = (drop (drop s).reverse).reverse := by
  rw [trim, if_neg]
  · rfl
  · intro hall
    have := List.all_eq_true.mp hall c hc
    exact h (by simpa using this)

theorem trim_tight {a b : Nat} {body : List Char} (h : Tight body) :
    trim (List.replicate a ' ' ++ body ++ List.replicate b ' ') = body := by
  obtain ⟨⟨c, t, hc, hcb⟩, u, d, hd, hdb⟩ := h
  have hmem : c ∈ List.replicate a ' ' ++ body ++ List.replicate b ' ' := by simp [hc]
  rw [trim_of_not hmem hcb, List.append_assoc, drop_blanks]
  have h1 : drop (body ++ List.replicate b ' ') = body ++ List.replicate b ' ' := by
    rw [hc, List.cons_append, drop_cons _ hcb]
  rw [h1, List.reverse_append, List.reverse_replicate, drop_blanks]
  have h2 : body.reverse = d :: u.reverse := by rw [hd]; simp
  rw [h2, drop_cons _ hdb, ← h2, List.reverse_reverse]

theorem trim_decompose {s : List Char} {c : Char} (hc : c ∈ s) (h : c ≠ ' ') :
    ∃ a b, s = List.replicate a ' ' ++ trim s ++ List.replicate b ' ' ∧ Tight (trim s) := by
  rw [trim_of_not hc h]
  obtain ⟨a, h1, h2⟩ := drop_split s
  obtain ⟨b, h3, h4⟩ := drop_split (drop s).reverse
  have h5 : drop s = (drop (drop s).reverse).reverse ++ List.replicate b ' ' := by
    have := congrArg List.reverse h3
    rw [List.reverse_reverse, List.reverse_append, List.reverse_replicate] at this
    exact this
  refine ⟨a, b, ?_, ?_, ?_⟩
  · rw [List.append_assoc, ← h5]; exact h1
  · rcases h2 with h2 | ⟨x, t, h2, hx⟩
    · exfalso
      rw [h2, List.append_nil] at h1
      rw [h1] at hc
      exact h (List.eq_of_mem_replicate hc)
    · rw [h2, List.reverse_cons, drop_snoc _ hx]
      exact ⟨x, (drop t.reverse).reverse, by simp, hx⟩
  · rcases h4 with h4 | ⟨x, t, h4, hx⟩
    · exfalso
      rw [h4] at h5
      rw [h5] at h1
      rw [h1] at hc
      simp only [List.reverse_nil, List.nil_append, List.mem_append, List.mem_replicate] at hc
      rcases hc with hc | hc <;> exact h hc.2
    · exact ⟨t.reverse, x, by rw [h4]; simp, hx⟩

theorem isComment_iff (s : List Char) : isComment s = true ↔ s = [] ∨ ∃ c t, s = c :: t ∧ CommentStart c := by
  cases s with
  | nil => simp [isComment]
  | cons c t => simp [isComment, CommentStart]

theorem comment_ne {c : Char} (h : CommentStart c) : c ≠ ' ' := by
  rcases h with h | h | h <;> subst h <;> decide

/-- What is ignored is what says nothing. -/
theorem silent_iff (line : List Char) : isComment (trim line) = true ↔ Silent line := by
  rw [isComment_iff]
  by_cases hb : ∃ c ∈ line, c ≠ ' '
  · obtain ⟨c, hc, hcb⟩ := hb
    obtain ⟨a, b, h1, ⟨x, t, hx, hxb⟩, h2⟩ := trim_decompose hc hcb
    constructor
    · rintro (h | ⟨c', t', h, hs⟩)
      · rw [h] at hx; cases hx
      · right
        refine ⟨a, c', t' ++ List.replicate b ' ', ?_, hs⟩
        rw [h] at h1
        simpa using h1
    · rintro (h | ⟨a', c', rest, h, hs⟩)
      · rw [h] at hc; simp at hc
      · right
        have hm : c' ∈ line := by rw [h]; simp
        rw [trim_of_not hm (comment_ne hs), h, drop_blanks, drop_cons _ (comment_ne hs), List.reverse_cons,
          drop_snoc _ (comment_ne hs)]
        exact ⟨c', (drop rest.reverse).reverse, by simp, hs⟩
  · have hall : ∀ c ∈ line, c = ' ' := fun c hc => by
      by_contra hn
      exact hb ⟨c, hc, hn⟩
    have ht : trim line = line := by
      rw [trim, if_pos]
      exact List.all_eq_true.mpr fun c hc => by simpa using hall c hc
    rw [ht]
    constructor
    · rintro (h | ⟨c, t, h, hs⟩)
      · exact Or.inl h
      · exact absurd (hall c (by rw [h]; simp)) (comment_ne hs)
    · rintro (h | ⟨a, c, rest, h, hs⟩)
      · exact Or.inl h
      · exact absurd (hall c (by rw [h]; simp)) (comment_ne hs)

/-! ### Lines -/

theorem fileLines_ne (t : List Char) : fileLines t ≠ [] := by
  cases t with
  | nil => simp [fileLines]
  | cons c cs =>
    rw [fileLines]
    by_cases h : c = '\n'
    · rw [if_pos h]; simp
    · rw [if_neg h]; split <;> simp

theorem fileLines_line (l : List Char) (h : '\n' ∉ l) : fileLines l = [l] := by
  induction l with
  | nil => rfl
  | cons c cs ih =>
    rw [fileLines, if_neg (fun e => h (by simp [e])), ih (fun e => h (by simp [e]))]

theorem fileLines_append (l rest : List Char) (h : '\n' ∉ l) :
    fileLines (l ++ '\n' :: rest) = l :: fileLines rest := by
  induction l with
  | nil => simp [fileLines]
  | cons c cs ih =>
    rw [List.cons_append, fileLines, if_neg (fun e => h (by simp [e])), ih (fun e => h (by simp [e]))]

/-- The file with the given lines. -/
theorem fileLines_join : ∀ (ls : List (List Char)), ls ≠ [] → (∀ l ∈ ls, '\n' ∉ l) →
    fileLines (List.intercalate ['\n'] ls) = ls
  | [], h, _ => absurd rfl h
  | [l], _, h => by
    rw [show List.intercalate ['\n'] [l] = l by simp [List.intercalate]]
    exact fileLines_line l (h l (by simp))
  | l :: l' :: ls, _, h => by
    have : List.intercalate ['\n'] (l :: l' :: ls) = l ++ '\n' :: List.intercalate ['\n'] (l' :: ls) := by
      simp [List.intercalate]
    rw [this, fileLines_append _ _ (h l (by simp)),
      fileLines_join (l' :: ls) (by simp) (fun x hx => h x (List.mem_cons_of_mem _ hx))]

/-! ### Numbers -/

theorem readNumbers_of {scan : List Char → Option (ℝ × List Char)} {text : List Char} {vs : List ℝ}
    (h : Numbers scan text vs) : ∀ fuel, text.length ≤ fuel → readNumbers scan fuel text = vs := by
  induction h with
  | stop text h =>
    intro fuel _
    cases fuel with
    | zero => rfl
    | succ n => simp [readNumbers, h]
  | more text v rest vs h hl _ ih =>
    intro fuel hf
    cases fuel with
    | zero => omega
    | succ n => simp [readNumbers, h, ih n (by omega)]

theorem numbers_exist {scan : List Char → Option (ℝ × List Char)}
    (hscan : ∀ text v rest, scan text = some (v, rest) → rest.length < text.length) :
    ∀ (n : Nat) (text : List Char), text.length ≤ n → ∃ vs, Numbers scan text vs := by
  intro n
  induction n with
  | zero =>
    intro text ht
    cases hs : scan text with
    | none => exact ⟨[], .stop _ hs⟩
    | some w => have := hscan text w.1 w.2 hs; omega
  | succ n ih =>
    intro text ht
    cases hs : scan text with
    | none => exact ⟨[], .stop _ hs⟩
    | some w =>
      have hl := hscan text w.1 w.2 hs
      obtain ⟨vs, hv⟩ := ih w.2 (by omega)
      exact ⟨w.1 :: vs, .more _ w.1 w.2 vs hs hl hv⟩

theorem toInt_ok {v : ℝ} {n : Int} : toInt v = .ok n ↔ WholePart v n := by
  have key : WholePart v n → (-2147483649 < v ∧ v < 2147483648) ∧ (if 0 ≤ v then ⌊v⌋ else ⌈v⌉) = n := by
    rintro ⟨h1, h2, h3, h4, h5⟩
    have h4' : (-2147483648 : ℝ) ≤ n := by exact_mod_cast h4
    have h5' : (n : ℝ) ≤ 2147483647 := by exact_mod_cast (by omega : n ≤ 2147483647)
    by_cases hv : 0 ≤ v
    · rw [abs_of_nonneg hv] at h1 h2
      have hn : (0 : ℝ) ≤ n := by
        by_contra hneg
        have hneg : (n : ℝ) < 0 := not_le.mp hneg
        have hn1 : n ≤ -1 := by have : n < 0 := by exact_mod_cast hneg
                                omega
        have hn1' : (n : ℝ) ≤ -1 := by exact_mod_cast hn1
        rw [abs_of_neg hneg] at h1
        nlinarith
      rw [abs_of_nonneg hn] at h1 h2
      refine ⟨⟨by linarith, by linarith⟩, ?_⟩
      rw [if_pos hv, Int.floor_eq_iff]
      exact ⟨h1, h2⟩
    · have hv' : v < 0 := not_le.mp hv
      rw [abs_of_neg hv'] at h1 h2
      have hn : (n : ℝ) ≤ 0 := by
        by_contra hpos
        have hpos : (0 : ℝ) < n := not_le.mp hpos
        nlinarith
      rw [abs_of_nonpos hn] at h1 h2
      refine ⟨⟨by linarith, by linarith⟩, ?_⟩
      rw [if_neg hv, Int.ceil_eq_iff]
      exact ⟨by linarith, by linarith⟩
  constructor
  · intro h
    rw [toInt] at h
    by_cases hr : -2147483649 < v ∧ v < 2147483648
    · rw [if_pos hr] at h
      injection h with h
      by_cases hv : 0 ≤ v
      · rw [if_pos hv, Int.floor_eq_iff] at h
        have hn : (0 : ℝ) ≤ n := by
          have : (-1 : ℝ) < n := by linarith
          have : (-1 : Int) < n := by exact_mod_cast this
          exact_mod_cast (by omega : 0 ≤ n)
        have hlt : (n : ℝ) < 2147483648 := by linarith [hr.2]
        refine ⟨by rw [abs_of_nonneg hn, abs_of_nonneg hv]; exact h.1,
          by rw [abs_of_nonneg hn, abs_of_nonneg hv]; exact h.2, mul_nonneg hn hv, ?_, by exact_mod_cast hlt⟩
        have : (0 : Int) ≤ n := by exact_mod_cast hn
        omega
      · have hv' : v < 0 := not_le.mp hv
        rw [if_neg hv, Int.ceil_eq_iff] at h
        have hn : (n : ℝ) ≤ 0 := by
          have : (n : ℝ) < 1 := by linarith
          have : n < (1 : Int) := by exact_mod_cast this
          exact_mod_cast (by omega : n ≤ 0)
        have hgt : (-2147483649 : ℝ) < n := by linarith [hr.1]
        have hgt' : (-2147483649 : Int) < n := by exact_mod_cast hgt
        refine ⟨by rw [abs_of_nonpos hn, abs_of_neg hv']; linarith,
          by rw [abs_of_nonpos hn, abs_of_neg hv']; linarith, mul_nonneg_of_nonpos_of_nonpos hn hv'.le,
          by omega, ?_⟩
        have : n ≤ (0 : Int) := by exact_mod_cast hn
        omega
    · rw [if_neg hr] at h; cases h
  · intro h
    obtain ⟨hr, hn⟩ := key h
    rw [toInt, if_pos hr, hn]

/-! ### The reading -/

theorem has_trim {scan : List Char → Option (ℝ × List Char)} {line : List Char} {vs : List ℝ} (h : Has scan line vs) :
    isComment (trim line) = false ∧ readNumbers scan (trim line).length (trim line) = vs := by
  obtain ⟨a, body, b, hl, ht, hn, hv⟩ := h
  rw [hl, trim_tight ht]
  refine ⟨?_, readNumbers_of hv _ (le_refl _)⟩
  by_contra hc
  have hc : isComment body = true := by simpa using hc
  rcases (isComment_iff body).mp hc with h0 | ⟨c, t, h0, hs⟩
  · obtain ⟨⟨c, t, h1, _⟩, _⟩ := ht
    rw [h0] at h1; cases h1
  · exact hn c t h0 hs

theorem readLine_says {scan : List Char → Option (ℝ × List Char)} {line : List Char} {m : Option TextPoint}
    (h : Says scan line m) : readLine scan line = .ok m.toList := by
  cases m with
  | none =>
    rw [readLine, if_pos ((silent_iff line).mpr h)]; rfl
  | some p =>
    obtain ⟨v, hh, hw⟩ := h
    obtain ⟨h1, h2⟩ := has_trim hh
    rw [readLine, if_neg (by rw [h1]; simp), h2]
    simp only [toInt_ok.mpr hw, Outcome.ok_bind]
    have : (![p.x 0, p.x 1, p.x 2] : V3) = p.x := by
      funext i; fin_cases i <;> rfl
    rw [this]; rfl

theorem readLine_ok {scan : List Char → Option (ℝ × List Char)}
    (hscan : ∀ text v rest, scan text = some (v, rest) → rest.length < text.length)
    {line : List Char} {ps : List TextPoint} (h : readLine scan line = .ok ps)
    (hblank : ∀ text, (∀ c ∈ text, c = ' ') → scan text = none) :
    ∃ m, Says scan line m ∧ ps = m.toList := by
  by_cases hc : isComment (trim line) = true
  · rw [readLine, if_pos hc] at h
    injection h with h
    exact ⟨none, (silent_iff line).mp hc, h.symm⟩
  · rw [readLine, if_neg hc] at h
    by_cases hb : ∃ c ∈ line, c ≠ ' '
    · obtain ⟨c, hcm, hcb⟩ := hb
      obtain ⟨a, b, h1, h2⟩ := trim_decompose hcm hcb
      obtain ⟨vs, hv⟩ := numbers_exist hscan (trim line).length (trim line) (le_refl _)
      have hr := readNumbers_of hv (trim line).length (le_refl _)
      rw [hr] at h
      rcases vs with _ | ⟨x, _ | ⟨y, _ | ⟨z, _ | ⟨w, _ | ⟨v, _ | ⟨q, vs⟩⟩⟩⟩⟩⟩ <;> try (cases h; done)
      simp only at h
      obtain ⟨n, hn, h⟩ := Outcome.bind_eq_ok.mp h
      injection h with h
      refine ⟨some ⟨![x, y, z], n, v⟩, ⟨w, ⟨a, trim line, b, h1, h2, ?_, ?_⟩, toInt_ok.mp hn⟩, h.symm⟩
      · intro c t hct hs
        exact hc ((isComment_iff _).mpr (Or.inr ⟨c, t, hct, hs⟩))
      · simpa using hv
    · have hall : ∀ c ∈ line, c = ' ' := fun c hc => by
        by_contra hn
        exact hb ⟨c, hc, hn⟩
      have ht : trim line = line := by
        rw [trim, if_pos]
        exact List.all_eq_true.mpr fun c hc => by simpa using hall c hc
      rw [ht] at h
      have : readNumbers scan line.length line = [] := by
        cases hl : line.length with
        | zero => rfl
        | succ n => simp [readNumbers, hblank line hall]
      rw [this] at h
      cases h

theorem readLines_says {scan : List Char → Option (ℝ × List Char)} {ls : List (List Char)}
    {ms : List (Option TextPoint)} (h : List.Forall₂ (Says scan) ls ms) :
    readLines scan ls = .ok (ms.flatMap Option.toList) := by
  induction h with
  | nil => rfl
  | cons h1 _ ih =>
    rw [readLines, readLine_says h1]
    simp only [Outcome.ok_bind]
    rw [ih]
    simp [Outcome.ok_bind]

theorem readLines_ok {scan : List Char → Option (ℝ × List Char)}
    (hscan : ∀ text v rest, scan text = some (v, rest) → rest.length < text.length)
    (hblank : ∀ text, (∀ c ∈ text, c = ' ') → scan text = none) :
    ∀ {ls : List (List Char)} {ps : List TextPoint}, readLines scan ls = .ok ps →
    ∃ ms, List.Forall₂ (Says scan) ls ms ∧ ps = ms.flatMap Option.toList
  | [], ps, h => by
    rw [readLines] at h
    injection h with h
    exact ⟨[], .nil, h.symm⟩
  | l :: ls, ps, h => by
    rw [readLines] at h
    obtain ⟨here, h1, h⟩ := Outcome.bind_eq_ok.mp h
    obtain ⟨rest, h2, h⟩ := Outcome.bind_eq_ok.mp h
    injection h with h
    obtain ⟨m, hm, hp⟩ := readLine_ok hscan h1 hblank
    obtain ⟨ms, hms, hps⟩ := readLines_ok hscan hblank h2
    exact ⟨m :: ms, .cons hm hms, by rw [← h, hp, hps]; rfl⟩

theorem readLines_fail {scan : List Char → Option (ℝ × List Char)} {pre : List (List Char)}
    {ms : List (Option TextPoint)} (h : List.Forall₂ (Says scan) pre ms) {line : List Char}
    (hl : readLine scan line = .fail .terminate) (post : List (List Char)) :
    readLines scan (pre ++ line :: post) = .fail .terminate := by
  induction h with
  | nil => rw [List.nil_append, readLines, hl]; rfl
  | cons h1 _ ih =>
    rw [List.cons_append, readLines, readLine_says h1]
    simp only [Outcome.ok_bind]
    rw [ih]; rfl

end Verif.Mesh
