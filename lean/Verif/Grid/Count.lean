import Verif.Grid.Walk

/-! # The size reserved for neighborhoods (helper lemmas) -/

namespace Verif.Grid

open Verif

theorem countRow_done {nx my j k : Nat} {bound : Cell → Nat} :
    ∀ (fuel i : Nat) (c : Count), ¬ c.cell < my → countRow nx my j k bound fuel i c = c := by
  intro fuel i c h
  cases fuel with
  | zero => rfl
  | succ f => rw [countRow, if_neg (fun e => h e.2)]

theorem countPlane_done {nx ny my k : Nat} {bound : Cell → Nat} :
    ∀ (fuel j : Nat) (c : Count), ¬ c.cell < my →
      (countPlane nx ny my k bound fuel j c).cell = c.cell ∧
      (countPlane nx ny my k bound fuel j c).size = c.size := by
  intro fuel
  induction fuel with
  | zero => intro j c h; exact ⟨rfl, rfl⟩
  | succ f ih =>
      intro j c h
      rw [countPlane]
      by_cases hj : j < ny
      · rw [if_pos hj, countRow_done _ _ _ (show ¬ ({ c with jStart := 0 } : Count).cell < my from h)]
        exact ih (j + 1) { c with jStart := 0 } h
      · rw [if_neg hj]
        exact ⟨rfl, rfl⟩

theorem countBody_done {nx ny nz my : Nat} {bound : Cell → Nat} :
    ∀ (fuel k : Nat) (c : Count), ¬ c.cell < my →
      (countBody nx ny nz my bound fuel k c).size = c.size := by
  intro fuel
  induction fuel with
  | zero => intro k c h; rfl
  | succ f ih =>
      intro k c h
      rw [countBody]
      by_cases hk : k < nz
      · obtain ⟨h1, h2⟩ := countPlane_done (nx := nx) (ny := ny) (k := k) (bound := bound) ny c.jStart c h
        rw [if_pos hk, ih (k + 1) _ (by rw [h1]; exact h), h2]
      · rw [if_neg hk]

/-- The two loops are at the same place. -/
structure Sim (my s : Nat) (bound : Cell → Nat) (c : Count) (w : Walk) : Prop where
  cell : c.cell = w.cell
  size : c.size = s + (w.out.map bound).sum
  rest : w.cell < my → c.iStart = w.iStart ∧ c.jStart = w.jStart

theorem countRow_sim {nx my s j k : Nat} {bound : Cell → Nat} :
    ∀ (fuel i : Nat) (c : Count) (w : Walk), Sim my s bound c w →
      Sim my s bound (countRow nx my j k bound fuel i c) (rowLoop nx my j k fuel i w) := by
  intro fuel
  induction fuel with
  | zero => intro i c w h; exact h
  | succ f ih =>
      intro i c w h
      rw [countRow, rowLoop, h.cell]
      by_cases hc : i < nx ∧ w.cell < my
      · rw [if_pos hc, if_pos hc]
        apply ih
        refine Sim.mk rfl ?_ (fun _ => And.intro rfl (h.rest hc.2).2)
        show c.size + bound ⟨i, j, k⟩ = s + ((w.out ++ [(⟨i, j, k⟩ : Cell)]).map bound).sum
        rw [h.size, List.map_append, List.sum_append]
        simp
        omega
      · rw [if_neg hc, if_neg hc]
        exact h

theorem countPlane_sim {nx ny my s k : Nat} {bound : Cell → Nat} :
    ∀ (fuel j : Nat) (c : Count) (w : Walk), Sim my s bound c w →
      Sim my s bound (countPlane nx ny my k bound fuel j c) (planeLoop nx ny my k fuel j w) := by
  intro fuel
  induction fuel with
  | zero => intro j c w h; exact h
  | succ f ih =>
      intro j c w h
      by_cases hw : w.cell < my
      · rw [countPlane, planeLoop]
        by_cases hj : j < ny
        · rw [if_pos hj, if_pos ⟨hj, hw⟩]
          apply ih
          have hr := countRow_sim (nx := nx) (j := j) (k := k) nx c.iStart { c with jStart := 0 }
            { w with jStart := 0, here := { w.here with j := j } }
            (show Sim my s bound _ _ from ⟨h.cell, h.size, fun hlt => ⟨(h.rest hlt).1, rfl⟩⟩)
          rw [(h.rest hw).1] at hr ⊢
          exact ⟨hr.cell, hr.size, hr.rest⟩
        · rw [if_neg hj, if_neg (fun e => hj e.1)]
          exact h
      · obtain ⟨h1, h2⟩ := countPlane_done (nx := nx) (ny := ny) (k := k) (bound := bound) (f + 1) j c
          (by rw [h.cell]; exact hw)
        have e : planeLoop nx ny my k (f + 1) j w = w := by
          rw [planeLoop, if_neg (fun e => hw e.2)]
        rw [e]
        exact ⟨by rw [h1, h.cell], by rw [h2, h.size], fun hlt => absurd hlt hw⟩

theorem countBody_sim {nx ny nz my s : Nat} {bound : Cell → Nat} :
    ∀ (fuel k : Nat) (c : Count) (w : Walk), Sim my s bound c w →
      (countBody nx ny nz my bound fuel k c).size =
        s + ((bodyLoop nx ny nz my fuel k w).out.map bound).sum := by
  intro fuel
  induction fuel with
  | zero => intro k c w h; exact h.size
  | succ f ih =>
      intro k c w h
      by_cases hw : w.cell < my
      · rw [countBody, bodyLoop]
        by_cases hk : k < nz
        · rw [if_pos hk, if_pos ⟨hk, hw⟩]
          apply ih
          rw [(h.rest hw).2]
          exact countPlane_sim _ _ _ _ ⟨h.cell, h.size, h.rest⟩
        · rw [if_neg hk, if_neg (fun e => hk e.1)]
          exact h.size
      · rw [countBody_done _ _ _ (by rw [h.cell]; exact hw), bodyLoop, if_neg (fun e => hw e.2)]
        exact h.size

/-- What is reserved is one entry for every cell visited and its bound on the number of neighbors. -/
theorem sizeNeighborList_eq (nx ny nz my : Nat) (bound : Cell → Nat) (c : Cell) :
    sizeNeighborList nx ny nz my bound c =
      my + ((walk nx ny nz my c).out.map bound).sum :=
  countBody_sim nz c.k _ _ ⟨rfl, rfl, fun _ => ⟨rfl, rfl⟩⟩

end Verif.Grid
