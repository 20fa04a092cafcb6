import Verif.Synch.Spec
import Verif.Assembly.Props

/-! Helper lemmas for the data of blocks between evaluations. -/

namespace Verif.Synch

open Verif Verif.Assembly

variable {V : Type}

theorem copy_importInsert (f : BlockField V) (src : Assembly.Dist V) (q g : Nat) (w : V) :
    Copy (importInsert f src) q g w ↔ ∃ v0, Copy f q g v0 ∧ w = (Assembly.lookup src (f.pick q g) g).getD v0 := by
  unfold Copy importInsert
  constructor
  · rintro ⟨d, part, hd, hp, hm⟩
    simp only [Option.map_eq_some_iff] at hd
    obtain ⟨d0, hd0, rfl⟩ := hd
    rw [List.getElem?_mapIdx, Option.map_eq_some_iff] at hp
    obtain ⟨part0, hp0, rfl⟩ := hp
    obtain ⟨e, he, heq⟩ := List.mem_map.1 hm
    obtain ⟨k, v0⟩ := e
    have hk : k = g := by
      have := congrArg Prod.fst heq
      rwa [receiveInsert_fst] at this
    subst hk
    refine ⟨v0, ⟨d0, part0, hd0, hp0, he⟩, ?_⟩
    have : (receiveInsert (Assembly.lookup src (f.pick q k) k) (k, v0)).2 = w := congrArg Prod.snd heq
    rw [← this]
    cases Assembly.lookup src (f.pick q k) k <;> simp [receiveInsert]
  · rintro ⟨v0, ⟨d0, part0, hd0, hp0, he⟩, rfl⟩
    refine ⟨_, _, by rw [hd0]; rfl, by rw [List.getElem?_mapIdx, hp0]; rfl, ?_⟩
    refine List.mem_map.2 ⟨(g, v0), he, ?_⟩
    cases Assembly.lookup src (f.pick q g) g <;> simp [receiveInsert]

theorem ids_importInsert (f : BlockField V) (src : Assembly.Dist V) :
    (importInsert f src).data.map ids = f.data.map ids := by
  unfold importInsert ids
  cases f.data with
  | none => rfl
  | some d =>
    simp only [Option.map_some]
    congr 1
    apply List.ext_getElem
    · simp
    · intro i h1 h2
      simp only [List.getElem_map, List.getElem_mapIdx, List.map_map]
      apply List.map_congr_left
      intro e _
      exact receiveInsert_fst _ _

theorem pick_importInsert (f : BlockField V) (src : Assembly.Dist V) : (importInsert f src).pick = f.pick := rfl

theorem importData_same (b : Block V) (src : Option (Assembly.Dist V)) (n : String) (s : Field.Step) :
    (b.importData src n s).field n s = match src with
      | none => b.field n s
      | some g => importInsert (b.field n s) g := by
  cases src with
  | none => rfl
  | some g => simp [Block.importData, Block.put]

theorem importData_other (b : Block V) (src : Option (Assembly.Dist V)) (n : String) (s : Field.Step) (n' : String)
    (s' : Field.Step) (h : ¬ (n' = n ∧ s' = s)) : (b.importData src n s).field n' s' = b.field n' s' := by
  cases src with
  | none => rfl
  | some g => simp only [Block.importData, Block.put]; rw [if_neg h]

theorem importAll_other (b : Block V) (G : Globals V) (t : List (String × String)) (n : String) (s : Field.Step)
    (h : n ∉ t.map Prod.snd ∨ s ≠ .np1) : (b.importAll G t).field n s = b.field n s := by
  unfold Block.importAll
  induction t generalizing b with
  | nil => rfl
  | cons e t ih =>
    rw [List.foldl_cons, ih]
    · apply importData_other
      rintro ⟨h1, h2⟩
      rcases h with h | h
      · exact h (by rw [h1]; simp)
      · exact h h2
    · rcases h with h | h
      · left
        intro h1
        exact h (by rw [List.map_cons]; exact List.mem_cons_of_mem _ h1)
      · exact Or.inr h

theorem importAll_same (b : Block V) (G : Globals V) (t : List (String × String)) (m n : String)
    (hn : (t.map Prod.snd).Nodup) (h : (m, n) ∈ t) : (b.importAll G t).field n .np1 = match G m with
      | none => b.field n .np1
      | some g => importInsert (b.field n .np1) g := by
  induction t generalizing b with
  | nil => cases h
  | cons e t ih =>
    rw [List.map_cons, List.nodup_cons] at hn
    rcases List.mem_cons.1 h with rfl | h
    · have h1 := importAll_other (b.importData (G m) n .np1) G t n .np1 (Or.inl hn.1)
      unfold Block.importAll at h1 ⊢
      rw [List.foldl_cons, h1, importData_same]
    · have h1 := ih (b.importData (G e.1) e.2 .np1) hn.2 h
      have hne : ¬ (n = e.2 ∧ Field.Step.np1 = Field.Step.np1) := by
        rintro ⟨rfl, -⟩
        exact hn.1 (List.mem_map.2 ⟨_, h, rfl⟩)
      rw [importData_other _ _ _ _ _ _ hne] at h1
      unfold Block.importAll at h1 ⊢
      rw [List.foldl_cons, h1]

theorem table_nodup (m : Bool) : ((table m).map Prod.snd).Nodup := by
  cases m <;> decide

theorem hourglass_not_in_table (m : Bool) : hourglass ∉ (table m).map Prod.snd := by
  cases m <;> decide

/-- A field after `synchDataManagers`, apart from the hourglass force. -/
theorem synch_field [Zero V] [Add V] (multiphysics registered : Bool) (scratch : Assembly.Dist V) (G : Globals V)
    (blocks : List (Block V)) (n : String) (s : Field.Step) (h : ¬ (n = hourglass ∧ s = .np1)) :
    (synchDataManagers multiphysics registered scratch G blocks).map (·.field n s) =
      blocks.map fun b => (b.importAll G (table multiphysics)).field n s := by
  unfold synchDataManagers sumHourglass
  cases registered with
  | false => simp [Function.comp_def]
  | true =>
    simp only [if_true, List.map_map]
    apply List.map_congr_left
    intro b _
    simp only [Function.comp_apply]
    exact importData_other _ _ _ _ _ _ h

/-- The hourglass force after `synchDataManagers`. -/
theorem synch_hourglass [Zero V] [Add V] (multiphysics : Bool) (scratch : Assembly.Dist V) (G : Globals V)
    (blocks : List (Block V)) :
    (synchDataManagers multiphysics true scratch G blocks).map (·.field hourglass .np1) =
      synchronize scratch (blocks.map (·.field hourglass .np1)) := by
  unfold synchDataManagers sumHourglass synchronize
  have e : (blocks.map (·.importAll G (table multiphysics))).map (·.field hourglass .np1) =
      blocks.map (·.field hourglass .np1) := by
    rw [List.map_map]
    apply List.map_congr_left
    intro b _
    exact importAll_other _ _ _ _ _ (Or.inl (hourglass_not_in_table _))
  simp only [if_true]
  rw [e, List.map_map, List.map_map, List.map_map]
  apply List.map_congr_left
  intro b _
  simp only [Function.comp_apply]
  rw [importData_same, importAll_other _ _ _ _ _ (Or.inl (hourglass_not_in_table _))]

theorem lookup_owns (t : Assembly.Dist V) (p g : Nat) (v : V) (h : Assembly.lookup t p g = some v) :
    Owns t p g := by
  unfold Assembly.lookup at h
  rw [Option.bind_eq_some_iff] at h
  obtain ⟨part, hp, hl⟩ := h
  exact ⟨part, hp, mem_of_lookup part g v hl⟩

theorem owns_ids (a b : Assembly.Dist V) (h : ids a = ids b) (p g : Nat) : Owns a p g ↔ Owns b p g := by
  have hq : ∀ t : Assembly.Dist V, Owns t p g ↔ ∃ l, (ids t)[p]? = some l ∧ g ∈ l := by
    intro t
    unfold Owns ids
    rw [List.getElem?_map]
    constructor
    · rintro ⟨part, hp, hg⟩
      exact ⟨_, by rw [hp]; rfl, hg⟩
    · rintro ⟨l, hl, hg⟩
      rw [Option.map_eq_some_iff] at hl
      obtain ⟨part, hp, rfl⟩ := hl
      exact ⟨part, hp, hg⟩
  rw [hq, hq, h]

theorem validPick_ids (a b : Assembly.Dist V) (h : ids a = ids b) (f : BlockField V) (hv : ValidPick a f) :
    ValidPick b f := fun q g p ho => hv q g p ((owns_ids a b h p g).2 ho)

theorem mem_of_map_eq {α β γ : Type} (f : α → γ) (g : β → γ) (l : List α) (l' : List β) (h : l.map f = l'.map g)
    (a : α) (ha : a ∈ l) : ∃ b ∈ l', g b = f a := by
  have : f a ∈ l'.map g := h ▸ List.mem_map.2 ⟨a, ha, rfl⟩
  exact List.mem_map.1 this

/-- What a copy of a field holds only depends on the data of that field. -/
theorem everyCopy_congr (bs bs' : List (Block V)) (n n' : String) (s s' : Field.Step) (g : Nat) (v : V)
    (h : bs.map (·.field n s) = bs'.map (·.field n' s')) (hc : EveryCopy bs n s g v) : EveryCopy bs' n' s' g v := by
  intro b' hb' q w hw
  obtain ⟨b, hb, he⟩ := mem_of_map_eq (fun b : Block V => b.field n' s') (fun b : Block V => b.field n s) bs' bs h.symm b' hb'
  exact hc b hb q w (he ▸ hw)

theorem updateState_field (bs : List (Block V)) (n : String) :
    (bs.map Block.updateState).map (·.field n .np1) = bs.map (·.field n .n) ∧
      (bs.map Block.updateState).map (·.field n .n) = bs.map (·.field n .np1) := by
  constructor <;> (rw [List.map_map]; rfl)

theorem runSteps_append [Zero V] [Add V] (multiphysics registered : Bool) (scratch : Assembly.Dist V)
    (ls ls' : List (Leg V)) (bs : List (Block V)) :
    runSteps multiphysics registered scratch (ls ++ ls') bs =
      ((runSteps multiphysics registered scratch ls bs).1 ++
        (runSteps multiphysics registered scratch ls' (runSteps multiphysics registered scratch ls bs).2).1,
        (runSteps multiphysics registered scratch ls' (runSteps multiphysics registered scratch ls bs).2).2) := by
  induction ls generalizing bs with
  | nil => rfl
  | cons l ls ih =>
    rw [List.cons_append, runSteps, ih, runSteps]
    rfl

theorem runSteps_length [Zero V] [Add V] (multiphysics registered : Bool) (scratch : Assembly.Dist V)
    (ls : List (Leg V)) (bs : List (Block V)) :
    (runSteps multiphysics registered scratch ls bs).1.length = ls.length := by
  induction ls generalizing bs with
  | nil => rfl
  | cons l ls ih => rw [runSteps, List.length_cons, List.length_cons, ih]

/-- After two steps the data of step N+1 are those of the first of the two records, if the second one leaves step N
alone. -/
theorem two_steps [Zero V] [Add V] (multiphysics registered : Bool) (scratch : Assembly.Dist V) (l1 l2 : Leg V)
    (bs : List (Block V)) (n : String) (hk : l2.Keeps n .n) :
    let r := runSteps multiphysics registered scratch [l1, l2] bs
    r.2.map (·.field n .np1) = (record multiphysics registered scratch l1 bs).map (·.field n .np1) ∧
      r.1 = [record multiphysics registered scratch l1 bs,
        record multiphysics registered scratch l2 ((record multiphysics registered scratch l1 bs).map Block.updateState)] ∧
      r.2.map (·.field n .n) = (record multiphysics registered scratch l2
        ((record multiphysics registered scratch l1 bs).map Block.updateState)).map (·.field n .np1) := by
  refine ⟨?_, rfl, ?_⟩
  · simp only [runSteps]
    rw [(updateState_field _ n).1]
    unfold record
    rw [synch_field _ _ _ _ _ _ _ (by simp)]
    have e : (fun b : Block V => (b.importAll l2.globals (table multiphysics)).field n .n) = (·.field n .n) := by
      funext b
      exact importAll_other _ _ _ _ _ (Or.inr (by simp))
    rw [e, hk, (updateState_field _ n).2]
  · simp only [runSteps]
    rw [(updateState_field _ n).2]

/-- The number of copies only depends on the ids. -/
theorem length_contributions (fs : List (BlockField V)) (g : Nat) : (contributions fs g).length =
    ((fs.map (fun b => b.data.map (·.map (·.map Prod.fst)))).map
      fun o => ((o.getD []).map fun l => (l.filter (· = g)).length).sum).sum := by
  unfold contributions
  rw [List.length_flatMap, List.map_map]
  congr 1
  apply List.map_congr_left
  intro f _
  simp only [Function.comp_apply]
  rw [List.length_flatMap]
  cases f.data with
  | none => rfl
  | some d =>
    simp only [Option.getD_some, Option.map_some, List.map_map]
    congr 1
    apply List.map_congr_left
    intro part _
    simp only [Function.comp_apply, List.length_map, List.filter_map]
    rfl

theorem mem_contributions (fs : List (BlockField V)) (g : Nat) (v : V) :
    v ∈ contributions fs g ↔ ∃ f ∈ fs, ∃ q, Copy f q g v := by
  unfold contributions Copy
  simp only [List.mem_flatMap, List.mem_map, List.mem_filter, decide_eq_true_eq]
  constructor
  · rintro ⟨f, hf, part, hp, e, ⟨he, rfl⟩, rfl⟩
    cases hd : f.data with
    | none => rw [hd] at hp; cases hp
    | some d =>
      rw [hd] at hp
      obtain ⟨q, hq, rfl⟩ := List.getElem_of_mem hp
      exact ⟨f, hf, q, d, _, hd, List.getElem?_eq_getElem hq, he⟩
  · rintro ⟨f, hf, q, d, part, hd, hp, hm⟩
    refine ⟨f, hf, part, ?_, (g, v), ⟨hm, rfl⟩, rfl⟩
    rw [hd]
    exact List.mem_of_getElem? hp

/-- The copies after a synchronisation. -/
theorem contributions_synchronize [AddCommMonoid V] (global : Assembly.Dist V) (fs : List (BlockField V))
    (hv : ∀ f ∈ fs, ValidPick global f) (g : Nat) (hg : ∃ p, Owns global p g) :
    contributions (synchronize global fs) g =
      List.replicate (contributions fs g).length (contributions fs g).sum := by
  rw [List.eq_replicate_iff]
  obtain ⟨h1, h2⟩ := C13_every_copy_partial global fs hv
  constructor
  · rw [length_contributions, length_contributions, h1]
  · intro v hv'
    obtain ⟨f, hf, q, d, part, hd, hp, hm⟩ := (mem_contributions _ _ _).1 hv'
    exact h2 f hf d hd part (List.mem_of_getElem? hp) _ hm hg

theorem valid_synchronize [AddCommMonoid V] (global : Assembly.Dist V) (fs : List (BlockField V))
    (hv : ∀ f ∈ fs, ValidPick global f) : ∀ f ∈ synchronize global fs, ValidPick global f := by
  intro f hf
  unfold synchronize at hf
  obtain ⟨f0, hf0, rfl⟩ := List.mem_map.1 hf
  exact hv f0 hf0

end Verif.Synch
