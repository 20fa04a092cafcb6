import Verif.Assembly.Spec
import Mathlib.Tactic.Common
import Mathlib.Tactic.Abel

/-! Lemmas for C12 and C13. -/

namespace Verif.Assembly

variable {V : Type}

/-- Sum of the sent values that arrive at id `g` of processor `p`. -/
def arriving [AddCommMonoid V] (pick : Nat → Nat → Nat) (ss : List (Nat × Nat × V)) (p g : Nat) : V :=
  ((ss.filter fun s => s.2.1 = g ∧ pick s.1 s.2.1 = p).map fun s => s.2.2).sum

/-- Add a function of processor and id to a vector. -/
def shift [Add V] (f : Nat → Nat → V) (t : Dist V) : Dist V :=
  t.mapIdx fun p part => part.map fun e => (e.1, e.2 + f p e.1)

theorem shift_shift [AddCommMonoid V] (f h : Nat → Nat → V) (t : Dist V) :
    shift h (shift f t) = shift (fun p g => f p g + h p g) t := by
  unfold shift
  rw [List.mapIdx_mapIdx]
  congr 1
  funext p part
  simp [Function.comp_def, add_assoc]

theorem shift_zero [AddCommMonoid V] (t : Dist V) : shift (fun _ _ => (0 : V)) t = t := by
  unfold shift
  apply List.ext_getElem
  · simp
  · intro i h1 h2; simp

theorem receiveAdd_shift [AddCommMonoid V] (pick : Nat → Nat → Nat) (t : Dist V)
    (s : Nat × Nat × V) : receiveAdd pick t s = shift (arriving pick [s]) t := by
  unfold receiveAdd shift
  congr 1
  funext p part
  by_cases hp : p = pick s.1 s.2.1
  · rw [if_pos hp]
    apply List.map_congr_left
    intro e _
    by_cases hg : e.1 = s.2.1
    · rw [if_pos hg]
      have : arriving pick [s] p e.1 = s.2.2 := by
        unfold arriving
        rw [List.filter_cons_of_pos (by simp [hg, hp])]
        simp
      rw [this]
    · rw [if_neg hg]
      have : arriving pick [s] p e.1 = 0 := by
        unfold arriving
        rw [List.filter_cons_of_neg (by simp; intro h; exact absurd h.symm hg)]
        simp
      rw [this, add_zero]
  · rw [if_neg hp]
    have h0 : ∀ e : Nat × V, arriving pick [s] p e.1 = 0 := by
      intro e
      unfold arriving
      rw [List.filter_cons_of_neg (by simp; intro _ h; exact hp h.symm)]
      simp
    conv_lhs => rw [← List.map_id part]
    apply List.map_congr_left
    intro e _
    rw [h0, add_zero]
    rfl

theorem arriving_cons [AddCommMonoid V] (pick : Nat → Nat → Nat) (s : Nat × Nat × V)
    (ss : List (Nat × Nat × V)) (p g : Nat) :
    arriving pick (s :: ss) p g = arriving pick [s] p g + arriving pick ss p g := by
  unfold arriving
  rw [show s :: ss = [s] ++ ss from rfl, List.filter_append, List.map_append, List.sum_append]

theorem foldl_receive [AddCommMonoid V] (pick : Nat → Nat → Nat) (ss : List (Nat × Nat × V))
    (t : Dist V) : ss.foldl (receiveAdd pick) t = shift (arriving pick ss) t := by
  induction ss generalizing t with
  | nil =>
    rw [List.foldl_nil]
    exact (shift_zero t).symm
  | cons s ss ih =>
    rw [List.foldl_cons, ih, receiveAdd_shift, shift_shift]
    congr 1
    funext p g
    rw [← arriving_cons]

/-- What a block adds at id `g` of processor `p`. -/
def blockSum [AddCommMonoid V] (b : BlockField V) (p g : Nat) : V :=
  arriving b.pick (sends (b.data.getD [])) p g

theorem exportAdd_shift [AddCommMonoid V] (b : BlockField V) (t : Dist V) :
    exportAdd b t = shift (blockSum b) t := by
  unfold exportAdd blockSum
  cases b.data with
  | none => exact (shift_zero t).symm
  | some d => exact foldl_receive _ _ _

theorem update_shift [AddCommMonoid V] (f h : Nat → Nat → V) (g : Dist V) :
    update (shift f (zeroOut g)) (shift h (zeroOut g)) =
      shift (fun p x => f p x + h p x) (zeroOut g) := by
  unfold update shift zeroOut
  apply List.ext_getElem
  · simp
  · intro i h1 h2
    simp only [List.getElem_zipWith, List.getElem_mapIdx, List.getElem_map, List.map_map]
    apply List.ext_getElem
    · simp
    · intro j h3 h4
      simp [add_comm]

theorem gatherLoop_shift [AddCommMonoid V] (g : Dist V) (bs : List (BlockField V))
    (f : Nat → Nat → V) :
    gatherLoop g bs (shift f (zeroOut g)) =
      shift (fun p x => f p x + (bs.map fun b => blockSum b p x).sum) (zeroOut g) := by
  induction bs generalizing f with
  | nil => simp [gatherLoop]
  | cons b bs ih =>
    rw [gatherLoop, exportAdd_shift, update_shift, ih]
    congr 1
    funext p x
    simp [add_assoc]

theorem gather_shift [AddCommMonoid V] (g : Dist V) (bs : List (BlockField V)) :
    gather g bs = shift (fun p x => (bs.map fun b => blockSum b p x).sum) (zeroOut g) := by
  unfold gather
  have := gatherLoop_shift g bs (fun _ _ => 0)
  rw [shift_zero] at this
  rw [this]
  simp

theorem lookup_map (part : Part V) (f : Nat → V → V) (g : Nat) :
    (part.map fun e => (e.1, f e.1 e.2)).lookup g = (part.lookup g).map (f g) := by
  induction part with
  | nil => rfl
  | cons e part ih =>
    obtain ⟨k, v⟩ := e
    simp only [List.map_cons, List.lookup_cons]
    by_cases h : g = k
    · subst h; simp
    · have : (g == k) = false := by simpa using h
      rw [this]; exact ih

theorem lookup_of_mem (part : Part V) (g : Nat) (h : g ∈ part.map Prod.fst) :
    ∃ v, part.lookup g = some v := by
  induction part with
  | nil => cases h
  | cons e part ih =>
    obtain ⟨k, v⟩ := e
    rw [List.lookup_cons]
    by_cases hk : g = k
    · subst hk; exact ⟨v, by simp⟩
    · have hb : (g == k) = false := by simpa using hk
      rw [hb]
      simp only [List.map_cons, List.mem_cons] at h
      exact ih (h.resolve_left hk)

theorem mem_of_lookup (part : Part V) (g : Nat) (v : V) (h : part.lookup g = some v) :
    g ∈ part.map Prod.fst := by
  induction part with
  | nil => cases h
  | cons e part ih =>
    obtain ⟨k, w⟩ := e
    rw [List.lookup_cons] at h
    by_cases hk : g = k
    · subst hk; simp
    · have hb : (g == k) = false := by simpa using hk
      rw [hb] at h
      simp [ih h]

/-- Gathered value at an owned id. -/
theorem lookup_gather [AddCommMonoid V] (g : Dist V) (bs : List (BlockField V)) (p x : Nat) :
    (Owns g p x → lookup (gather g bs) p x = some (bs.map fun b => blockSum b p x).sum) ∧
    (¬ Owns g p x → lookup (gather g bs) p x = none) := by
  rw [gather_shift]
  unfold lookup shift zeroOut
  rw [List.getElem?_mapIdx, List.getElem?_map]
  cases hp : g[p]? with
  | none =>
    constructor
    · rintro ⟨part, h, _⟩; rw [hp] at h; cases h
    · intro _; rfl
  | some part =>
    simp only [Option.map_some, Option.bind_some, List.map_map, Function.comp_def, zero_add]
    have e := lookup_map part (fun k _ => (bs.map fun b => blockSum b p k).sum) x
    rw [e]
    constructor
    · rintro ⟨part', h, hm⟩
      rw [hp] at h; cases h
      obtain ⟨v, hv⟩ := lookup_of_mem part x hm
      rw [hv]; rfl
    · intro hn
      cases hl : part.lookup x with
      | none => rfl
      | some v => exact absurd ⟨part, hp, mem_of_lookup _ _ _ hl⟩ hn

theorem filter_sends (d : Dist V) (P : Nat → Nat → V → Prop) [∀ q g v, Decidable (P q g v)]
    (Q : Nat × V → Prop) [DecidablePred Q] (n : Nat)
    (h : ∀ q, ∀ part ∈ d, ∀ e ∈ part, P q e.1 e.2 ↔ Q e) :
    (((d.zipIdx n).flatMap fun x => x.1.map fun e => (x.2, e.1, e.2)).filter
        fun s => P s.1 s.2.1 s.2.2).map (fun s => s.2.2) =
      d.flatMap fun part => (part.filter fun e => Q e).map Prod.snd := by
  induction d generalizing n with
  | nil => rfl
  | cons part d ih =>
    simp only [List.zipIdx_cons, List.flatMap_cons, List.filter_append, List.map_append]
    congr 1
    · have hp := fun e he => h n part List.mem_cons_self e he
      clear ih h
      induction part with
      | nil => rfl
      | cons e part ihp =>
        have h1 := ihp fun e' he' => hp e' (List.mem_cons_of_mem _ he')
        have h2 := hp e List.mem_cons_self
        rw [List.map_cons]
        by_cases hq : Q e
        · rw [List.filter_cons_of_pos (by simpa using h2.2 hq),
            List.filter_cons_of_pos (by simpa using hq)]
          simp [h1]
        · rw [List.filter_cons_of_neg (by simpa using fun hc => hq (h2.1 hc)),
            List.filter_cons_of_neg (by simpa using hq)]
          exact h1
    · exact ih (n + 1) fun q part' hp' => h q part' (List.mem_cons_of_mem _ hp')

theorem blockSum_eq [AddCommMonoid V] (g : Dist V) (b : BlockField V) (hv : ValidPick g b)
    (p x : Nat) (ho : Owns g p x) :
    blockSum b p x = ((b.data.getD []).flatMap fun part =>
      (part.filter fun e => e.1 = x).map Prod.snd).sum := by
  unfold blockSum arriving sends
  rw [filter_sends (b.data.getD []) (fun q k _ => k = x ∧ b.pick q k = p) (fun e => e.1 = x) 0]
  intro q part _ e _
  constructor
  · exact fun h => h.1
  · intro h
    refine ⟨h, ?_⟩
    rw [h]
    exact hv q x p ho

theorem sum_contributions [AddCommMonoid V] (bs : List (BlockField V)) (g : Dist V) (p x : Nat)
    (hv : ∀ b ∈ bs, ValidPick g b) (ho : Owns g p x) :
    (bs.map fun b => blockSum b p x).sum = (contributions bs x).sum := by
  unfold contributions
  induction bs with
  | nil => rfl
  | cons b bs ih =>
    rw [List.map_cons, List.sum_cons, List.flatMap_cons, List.sum_append,
      ih fun b' hb' => hv b' (List.mem_cons_of_mem _ hb'),
      blockSum_eq g b (hv b List.mem_cons_self) p x ho]

end Verif.Assembly
