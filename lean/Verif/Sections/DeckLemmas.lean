import Verif.Sections.BuildLemmas

/-! # Lemmas on the whole input and on the container -/

noncomputable section

namespace Verif.Sections

open Verif Verif.Field

section
variable {rs : List Request} {ids : List Nat} {fm : FieldManager}

theorem openAll_from (h : Registered rs ids fm) (np pid : Int) (deck : List (String × Top)) (hd : Proper deck)
    (acc : List Manager) :
    (AllUsable rs deck ∧ ∃ ms, deck.foldlM (openEntry fm np pid) acc = .ok (acc ++ ms) ∧
      List.Forall₂ (Means rs np pid) (sections deck) ms) ∨
    (¬ AllUsable rs deck ∧ ∃ f, deck.foldlM (openEntry fm np pid) acc = .fail f) := by
  induction deck generalizing acc with
  | nil =>
    left
    exact ⟨(fun e he => absurd he (by simp [outputEntries])), [], (by rw [List.append_nil]; rfl), List.Forall₂.nil⟩
  | cons e deck ih =>
    obtain ⟨n, top⟩ := e
    have hd' : Proper deck := fun n s hm => hd n s (List.mem_cons_of_mem _ hm)
    rw [List.foldlM_cons]
    by_cases hn : "Output".toList <:+: n.toList
    · have hc : Setup.contains "Output" n = true := decide_eq_true hn
      have hout : outputEntries ((n, top) :: deck) = (n, top) :: outputEntries deck := by
        rw [outputEntries, List.filter_cons, if_pos (decide_eq_true hn)]
        rfl
      cases top with
      | value =>
        right
        refine ⟨fun hA => ?_, .runtimeError, ?_⟩
        · obtain ⟨s, hs, -⟩ := hA (n, .value) (by rw [hout]; exact List.mem_cons_self)
          cases hs
        · rw [openEntry, if_pos hc]
          rfl
      | list s =>
        have hsec : sections ((n, .list s) :: deck) = s :: sections deck := by
          rw [sections, hout]
          rfl
        have hstep : openEntry fm np pid acc (n, .list s) = (openSection fm np pid s >>= fun m => .ok (acc ++ [m])) := by
          rw [openEntry, if_pos hc]
        rw [hstep]
        rcases openSection_cases h np pid (hd n s List.mem_cons_self) with ⟨U, m, hm, M⟩ | ⟨U, f, hf⟩
        · rw [hm]
          simp only [Outcome.ok_bind]
          rcases ih hd' (acc ++ [m]) with ⟨A, ms, h1, h2⟩ | ⟨A, f, h1⟩
          · left
            refine ⟨?_, m :: ms, by rw [h1, List.append_assoc]; rfl, ?_⟩
            · intro e he
              rw [hout] at he
              rcases List.mem_cons.1 he with rfl | he
              · exact ⟨s, rfl, U⟩
              · exact A e he
            · rw [hsec]
              exact List.Forall₂.cons M h2
          · right
            refine ⟨fun hA => A fun e he => hA e (by rw [hout]; exact List.mem_cons_of_mem _ he), f, h1⟩
        · right
          refine ⟨fun hA => ?_, f, by rw [hf]; rfl⟩
          obtain ⟨s', hs', U'⟩ := hA (n, .list s) (by rw [hout]; exact List.mem_cons_self)
          cases hs'
          exact U U'
    · have hc : ¬ Setup.contains "Output" n = true := fun h' => hn (of_decide_eq_true h')
      have hout : outputEntries ((n, top) :: deck) = outputEntries deck := by
        rw [outputEntries, List.filter_cons, if_neg (fun h' => hn (of_decide_eq_true h'))]
        rfl
      have hstep : openEntry fm np pid acc (n, top) = .ok acc := by rw [openEntry, if_neg hc]
      rw [hstep]
      simp only [Outcome.ok_bind]
      rw [AllUsable, sections, hout]
      exact ih hd' acc

theorem containerWrite_ok (ms : List Outputs.Manager) (t : ℝ) (out : List (Outputs.Manager × Recs))
    (h : List.Forall₂ (fun m o => m.write t = .ok o) ms out) : containerWrite ms t = .ok out := by
  induction h with
  | nil => rfl
  | cons h1 _ ih =>
    rw [containerWrite, h1]
    simp only [Outcome.ok_bind]
    rw [ih]
    rfl

theorem containerWrites_ok (ts : List ℝ) (ms : List Outputs.Manager) (out : List (Outputs.Manager × Recs))
    (h : List.Forall₂ (fun m o => m.writes ts = .ok o) ms out) : containerWrites ms ts = .ok out := by
  induction ts generalizing ms out with
  | nil =>
    rw [containerWrites]
    congr 1
    induction h with
    | nil => rfl
    | cons h1 _ ih =>
      rw [List.map_cons, ih]
      rw [Outputs.Manager.writes] at h1
      rw [Outcome.ok.inj h1]
  | cons t ts ih =>
    have key : ∃ rs out', List.Forall₂ (fun m o => m.write t = .ok o) ms rs ∧
        List.Forall₂ (fun m o => m.writes ts = .ok o) (rs.map Prod.fst) out' ∧
        out = List.zipWith (fun a b => (b.1, a.2 ++ b.2)) rs out' := by
      clear ih
      induction h with
      | nil => exact ⟨[], [], .nil, .nil, rfl⟩
      | cons h1 _ ih =>
        obtain ⟨rs, out', a, b, c⟩ := ih
        rw [Outputs.Manager.writes] at h1
        obtain ⟨r, hr, h2⟩ := Outcome.bind_eq_ok.1 h1
        obtain ⟨r', hr', h3⟩ := Outcome.bind_eq_ok.1 h2
        refine ⟨r :: rs, r' :: out', .cons hr a, .cons hr' b, ?_⟩
        rw [List.zipWith_cons_cons, c, Outcome.ok.inj h3]
    obtain ⟨rs, out', a, b, c⟩ := key
    rw [containerWrites, containerWrite_ok ms t rs a]
    simp only [Outcome.ok_bind]
    rw [ih _ _ b]
    simp only [Outcome.ok_bind]
    rw [c]

end

end Verif.Sections
