import Verif.Synch.StartModel
import Verif.Synch.Lemmas

/-! C229 and C230: the data before the first step. -/

namespace Verif.Synch

open Verif Verif.Assembly

variable {V : Type}

/-! ## Blocks -/

theorem fold_other (t : List (String × Field.Step × Assembly.Dist V)) (b : Block V) (n : String) (s : Field.Step)
    (h : (n, s) ∉ t.map fun e => (e.1, e.2.1)) :
    (t.foldl (fun b e => b.importData (some e.2.2) e.1 e.2.1) b).field n s = b.field n s := by
  induction t generalizing b with
  | nil => rfl
  | cons e t ih =>
    rw [List.map_cons, List.mem_cons, not_or] at h
    rw [List.foldl_cons, ih _ h.2, importData_other]
    rintro ⟨rfl, rfl⟩
    exact h.1 rfl

theorem fold_same (t : List (String × Field.Step × Assembly.Dist V)) (b : Block V) (n : String) (s : Field.Step)
    (src : Assembly.Dist V) (hn : (t.map fun e => (e.1, e.2.1)).Nodup) (h : (n, s, src) ∈ t) :
    (t.foldl (fun b e => b.importData (some e.2.2) e.1 e.2.1) b).field n s = importInsert (b.field n s) src := by
  induction t generalizing b with
  | nil => cases h
  | cons e t ih =>
    rw [List.map_cons, List.nodup_cons] at hn
    rw [List.foldl_cons]
    rcases List.mem_cons.1 h with rfl | h
    · rw [fold_other _ _ _ _ hn.1, importData_same]
    · rw [ih _ hn.2 h, importData_other]
      rintro ⟨h1, h2⟩
      exact hn.1 (List.mem_map.2 ⟨_, h, by rw [← h1, ← h2]⟩)

theorem start_keys [Zero V] (number : Nat → V) (multiphysics : Bool) (D : Disc V) :
    (((startTable number D ++ if multiphysics then startFluid (zeroOut D.cellVolume) else []).map
      fun e => (e.1, e.2.1))).Nodup := by
  cases multiphysics <;> simp [startTable, startFluid]

theorem start_field [Zero V] {number : Nat → V} {multiphysics : Bool} {D : Disc V} {bs : List (Block V)} {n : String}
    {s : Field.Step} {src : Assembly.Dist V}
    (h : (n, s, src) ∈ startTable number D ++ if multiphysics then startFluid (zeroOut D.cellVolume) else [])
    (hv : ∀ b ∈ bs, ValidPick src (b.field n s)) {p g : Nat} {v : V} (hl : Assembly.lookup src p g = some v) :
    EveryCopy (startBlocks number multiphysics D bs) n s g v := by
  intro b hb q w hw
  obtain ⟨b0, hb0, rfl⟩ := List.mem_map.1 hb
  unfold Block.start at hw
  rw [fold_same _ b0 n s src (start_keys _ _ _) h, copy_importInsert] at hw
  obtain ⟨v0, -, rfl⟩ := hw
  rw [hv b0 hb0 q g p (lookup_owns src p g v hl), hl]
  rfl

/-- The vectors of the discretization are on one map. -/
structure Disc.OneMap (D : Disc V) : Prop where
  block : ids D.blockID = ids D.cellVolume
  horizon : ids D.horizon = ids D.cellVolume
  position : ids D.initialX = ids D.cellVolume

theorem lookup_map (d : Assembly.Dist V) (f : Nat → V → V) (p g : Nat) :
    Assembly.lookup (d.map fun part => part.map fun e => (e.1, f e.1 e.2)) p g =
      (Assembly.lookup d p g).map (f g) := by
  unfold Assembly.lookup
  rw [List.getElem?_map]
  cases d[p]? with
  | none => rfl
  | some part =>
    simp only [Option.map_some, Option.bind_some]
    induction part with
    | nil => rfl
    | cons e part ih =>
      obtain ⟨k, v⟩ := e
      simp only [List.map_cons, List.lookup_cons]
      by_cases h : g = k
      · subst h; simp
      · rw [show (g == k) = false from by simpa using h]
        simpa using ih

theorem ids_map (d : Assembly.Dist V) (f : Nat → V → V) :
    ids (d.map fun part => part.map fun e => (e.1, f e.1 e.2)) = ids d := by
  unfold ids
  simp [List.map_map, Function.comp_def]

/-- **C229** (blocks): before the first step every copy of a point, in any block and on any processor, as owned point or as
ghost, has the block, horizon, volume and position that the discretization gives for the point, its coordinates are its
position at both steps, and its id is its global id; in a coupled problem its pressure is zero at both steps. -/
theorem C229_blocks [Zero V] (number : Nat → V) (multiphysics : Bool) (D : Disc V) (hD : D.OneMap) (bs : List (Block V))
    (hg : ∀ b ∈ bs, Good D.cellVolume b) (p g : Nat) :
    (∀ v, Assembly.lookup D.blockID p g = some v → EveryCopy (startBlocks number multiphysics D bs) "Block_Id" .none g v) ∧
    (∀ v, Assembly.lookup D.horizon p g = some v → EveryCopy (startBlocks number multiphysics D bs) "Horizon" .none g v) ∧
    (∀ v, Assembly.lookup D.cellVolume p g = some v → EveryCopy (startBlocks number multiphysics D bs) "Volume" .none g v ∧
      EveryCopy (startBlocks number multiphysics D bs) "Element_Id" .none g (number g) ∧
      (multiphysics = true → EveryCopy (startBlocks number multiphysics D bs) "Fluid_Pressure_Y" .n g 0 ∧
        EveryCopy (startBlocks number multiphysics D bs) "Fluid_Pressure_Y" .np1 g 0)) ∧
    (∀ v, Assembly.lookup D.initialX p g = some v →
      EveryCopy (startBlocks number multiphysics D bs) "Model_Coordinates" .none g v ∧
      EveryCopy (startBlocks number multiphysics D bs) "Coordinates" .n g v ∧
      EveryCopy (startBlocks number multiphysics D bs) "Coordinates" .np1 g v) := by
  have hv : ∀ src : Assembly.Dist V, ids src = ids D.cellVolume → ∀ n s, ∀ b ∈ bs, ValidPick src (b.field n s) :=
    fun src hs n s b hb => validPick_ids _ _ hs.symm _ (hg b hb n s)
  have hz : ids (zeroOut D.cellVolume) = ids D.cellVolume := ids_map D.cellVolume fun _ _ => 0
  have he : ids (elementIds number D.cellVolume) = ids D.cellVolume := ids_map D.cellVolume fun g _ => number g
  refine ⟨fun v hl => ?_, fun v hl => ?_, fun v hl => ⟨?_, ?_, ?_⟩, fun v hl => ⟨?_, ?_, ?_⟩⟩
  · exact start_field (by simp [startTable]) (hv _ hD.block _ _) hl
  · exact start_field (by simp [startTable]) (hv _ hD.horizon _ _) hl
  · exact start_field (by simp [startTable]) (hv _ rfl _ _) hl
  · refine start_field (src := elementIds number D.cellVolume) (p := p) (by simp [startTable]) (hv _ he _ _) ?_
    have := lookup_map D.cellVolume (fun g _ => number g) p g
    rw [hl] at this
    exact this
  · intro hm
    subst hm
    have hl0 : Assembly.lookup (zeroOut D.cellVolume) p g = some 0 := by
      have := lookup_map D.cellVolume (fun _ _ => (0 : V)) p g
      rw [hl] at this
      exact this
    exact ⟨start_field (by simp [startTable, startFluid]) (hv _ hz _ _) hl0,
      start_field (by simp [startTable, startFluid]) (hv _ hz _ _) hl0⟩
  · exact start_field (by simp [startTable]) (hv _ hD.position _ _) hl
  · exact start_field (by simp [startTable]) (hv _ hD.position _ _) hl
  · exact start_field (by simp [startTable]) (hv _ hD.position _ _) hl

/-- **C229** (other fields): all other data of the blocks are what they were, that is zero. -/
theorem C229_others [Zero V] (number : Nat → V) (multiphysics : Bool) (D : Disc V) (bs : List (Block V)) (n : String)
    (s : Field.Step)
    (h : (n, s) ∉ [("Block_Id", Field.Step.none), ("Horizon", .none), ("Volume", .none), ("Model_Coordinates", .none),
      ("Coordinates", .n), ("Coordinates", .np1), ("Element_Id", .none)])
    (hf : multiphysics = true → n ≠ "Fluid_Pressure_Y") :
    (startBlocks number multiphysics D bs).map (·.field n s) = bs.map (·.field n s) := by
  unfold startBlocks
  rw [List.map_map]
  apply List.map_congr_left
  intro b _
  show (b.start number multiphysics D).field n s = b.field n s
  unfold Block.start
  apply fold_other
  rw [List.map_append, List.mem_append, not_or]
  refine ⟨h, ?_⟩
  cases multiphysics with
  | false => simp
  | true => simp [startFluid, hf rfl]

/-! ## Vectors -/

theorem mem_of_lookup {a : String} {k : Nat} : ∀ {l : List (String × Nat)}, l.lookup a = some k → (a, k) ∈ l
  | [], h => by simp at h
  | (b, j) :: l, h => by
    rw [List.lookup_cons] at h
    by_cases e : a = b
    · subst e; simp at h; simp [h]
    · rw [show (a == b) = false from by simpa using e] at h
      exact List.mem_cons_of_mem _ (mem_of_lookup h)

theorem one_lt {m : Bool} {a : String} {k : Nat} (h : (oneNames m).lookup a = some k) : k < oneCount m := by
  have : ∀ e ∈ oneNames m, e.2 < oneCount m := by cases m <;> decide
  exact this _ (mem_of_lookup h)

theorem three_lt {a : String} {k : Nat} (h : threeNames.lookup a = some k) : k < threeCount := by
  have : ∀ e ∈ threeNames, e.2 < threeCount := by decide
  exact this _ (mem_of_lookup h)

theorem one_inj {m : Bool} {a b : String} {k : Nat} (ha : (oneNames m).lookup a = some k)
    (hb : (oneNames m).lookup b = some k) : a = b := by
  have hn : ((oneNames m).map Prod.snd).Nodup := by cases m <;> decide
  exact congrArg Prod.fst (List.inj_on_of_nodup_map hn (mem_of_lookup ha) (mem_of_lookup hb) rfl)

theorem three_inj {a b : String} {k : Nat} (ha : threeNames.lookup a = some k) (hb : threeNames.lookup b = some k) :
    a = b := by
  have hn : (threeNames.map Prod.snd).Nodup := by decide
  exact congrArg Prod.fst (List.inj_on_of_nodup_map hn (mem_of_lookup ha) (mem_of_lookup hb) rfl)

/-- The vectors that exist. -/
def Exists (multiphysics : Bool) (a : String) : Prop :=
  a ∈ ["blockIDs", "horizon", "volume", "density", "temperature", "deltaTemperature", "fluxDivergence",
        "concentrationFluxDivergence", "scalarScratch", "x", "u", "y", "v", "a", "force", "contactForce",
        "externalForce", "deltaU", "scratch"] ∨
      multiphysics = true ∧ a ∈ ["fluidPressureU", "fluidPressureY", "fluidPressureV", "fluidFlow",
        "fluidPressureDeltaU", "fluidDensity", "fluidCompressibility"]

theorem exists_column {m : Bool} {a : String} (h : Exists m a) :
    (∃ k, (oneNames m).lookup a = some k) ∨ (oneNames m).lookup a = none ∧ ∃ k, threeNames.lookup a = some k := by
  have key : ((oneNames m).lookup a).isSome ∨ (oneNames m).lookup a = none ∧ (threeNames.lookup a).isSome := by
    rcases h with h | ⟨rfl, h⟩
    · revert a
      cases m <;> decide
    · revert a
      decide
  rcases key with h | ⟨h, h'⟩
  · exact .inl (Option.isSome_iff_exists.1 h)
  · exact .inr ⟨h, Option.isSome_iff_exists.1 h'⟩

/-- All columns are there. -/
structure Full (multiphysics : Bool) (M : Mothership V) : Prop where
  one : M.one.count = oneCount multiphysics
  three : M.three.count = threeCount

/-- **C230** (storage): the vectors of the analysis exist and do not share storage: what is written to one is read from it,
and all others stay. -/
theorem C230_storage (multiphysics : Bool) (M : Mothership V) (h : Full multiphysics M) (a : String)
    (ha : Exists multiphysics a) (d : Assembly.Dist V) :
    ∃ M', M.store multiphysics a d = .ok M' ∧ Full multiphysics M' ∧ M'.view multiphysics a = .ok d ∧
      (∀ b, b ≠ a → M'.view multiphysics b = M.view multiphysics b) := by
  rcases exists_column ha with ⟨k, hk⟩ | ⟨hn, k, hk⟩
  · have hlt : k < M.one.count := by rw [h.one]; exact one_lt hk
    refine ⟨{ M with one := { M.one with column := Function.update M.one.column k d } }, ?_, ⟨h.one, h.three⟩, ?_, ?_⟩
    · unfold Mothership.store Multi.set
      rw [hk]
      simp only
      rw [if_pos hlt]
      rfl
    · unfold Mothership.view Multi.get
      rw [hk]
      simp only
      rw [if_pos hlt, Function.update_self]
    · intro b hb
      unfold Mothership.view
      cases hj : (oneNames multiphysics).lookup b with
      | none => rfl
      | some j =>
        have : j ≠ k := fun e => hb (one_inj (e ▸ hj) hk)
        simp only [Multi.get]
        rw [Function.update_of_ne this]
  · have hlt : k < M.three.count := by rw [h.three]; exact three_lt hk
    refine ⟨{ M with three := { M.three with column := Function.update M.three.column k d } }, ?_, ⟨h.one, h.three⟩, ?_, ?_⟩
    · unfold Mothership.store Multi.set
      rw [hn, hk]
      simp only
      rw [if_pos hlt]
      rfl
    · unfold Mothership.view Multi.get
      rw [hn, hk]
      simp only
      rw [if_pos hlt, Function.update_self]
    · intro b hb
      unfold Mothership.view
      cases hi : (oneNames multiphysics).lookup b with
      | some j => rfl
      | none =>
        cases hj : threeNames.lookup b with
        | none => rfl
        | some j =>
          have : j ≠ k := fun e => hb (three_inj (e ▸ hj) hk)
          simp only [Multi.get]
          rw [Function.update_of_ne this]

/-- **C230** (null pointers): without the coupled problem the seven vectors of the fluid are null pointers. -/
theorem C230_null (M : Mothership V) (a : String) (ha : a ∈ ["fluidPressureU", "fluidPressureY", "fluidPressureV",
    "fluidFlow", "fluidPressureDeltaU", "fluidDensity", "fluidCompressibility"]) :
    M.view false a = .fail .nullReference := by
  have h1 : (oneNames false).lookup a = none := by revert a; decide
  have h3 : threeNames.lookup a = none := by revert a; decide
  unfold Mothership.view
  rw [h1, h3]

theorem copyPart_same {s t : Assembly.Part V} (h : s.map Prod.fst = t.map Prod.fst) : copyPart s t = .ok s := by
  have hl : s.length = t.length := by simpa using congrArg List.length h
  unfold copyPart
  rw [if_neg (by omega)]
  congr 1
  apply List.ext_getElem
  · simp [hl]
  · intro i h1 h2
    have e : (s.map Prod.fst)[i]'(by simpa using h2) = (t.map Prod.fst)[i]'(by simp; omega) := by
      simp only [h]
    simp only [List.getElem_map] at e
    rw [List.getElem_zipWith]
    exact Prod.ext e.symm rfl

theorem copyDist_same {s t : Assembly.Dist V} (h : ids s = ids t) : copyDist s t = .ok s := by
  induction t generalizing s with
  | nil =>
    have : s = [] := by simpa [ids] using h
    subst this; rfl
  | cons t ts ih =>
    cases s with
    | nil => simp [ids] at h
    | cons a s =>
      simp only [ids, List.map_cons, List.cons.injEq] at h
      unfold copyDist
      rw [copyPart_same h.1, ih h.2]
      rfl

/-- A copy to a vector of the same map. -/
theorem copy_same {multiphysics : Bool} {M : Mothership V} (h : Full multiphysics M) {a : String} (ha : Exists multiphysics a)
    {source t : Assembly.Dist V} (ht : M.view multiphysics a = .ok t) (hs : ids source = ids t) :
    ∃ M', M.copy multiphysics source a = .ok M' ∧ Full multiphysics M' ∧ M'.view multiphysics a = .ok source ∧
      (∀ b, b ≠ a → M'.view multiphysics b = M.view multiphysics b) := by
  obtain ⟨M', h1, h2⟩ := C230_storage multiphysics M h a ha source
  refine ⟨M', ?_, h2⟩
  unfold Mothership.copy
  rw [ht]
  simp only [Outcome.ok_bind, copyDist_same hs]
  exact h1

theorem new_view [Zero V] {multiphysics : Bool} {D : Assembly.Dist V} {a : String} (ha : Exists multiphysics a) :
    (newMothership multiphysics D).view multiphysics a = .ok (zeroOut D) := by
  unfold Mothership.view
  rcases exists_column ha with ⟨k, hk⟩ | ⟨hn, k, hk⟩
  · rw [hk]; exact if_pos (one_lt hk)
  · rw [hn, hk]; exact if_pos (three_lt hk)

/-- **C230** (start): after `initializeDiscretization` block ids, horizons, volumes and positions are those of the
discretization, the current positions are the initial ones, and all other vectors, such as displacement, velocity and
temperature, are zero. -/
theorem C230_start [Zero V] (multiphysics : Bool) (D : Disc V) (hD : D.OneMap) :
    ∃ M, initializeVectors multiphysics D = .ok M ∧ Full multiphysics M ∧
      M.view multiphysics "blockIDs" = .ok D.blockID ∧ M.view multiphysics "horizon" = .ok D.horizon ∧
      M.view multiphysics "volume" = .ok D.cellVolume ∧ M.view multiphysics "x" = .ok D.initialX ∧
      M.view multiphysics "y" = .ok D.initialX ∧
      ∀ a, Exists multiphysics a → a ∉ ["blockIDs", "horizon", "volume", "x", "y"] →
        M.view multiphysics a = .ok (zeroOut D.cellVolume) := by
  have hz : ids (zeroOut D.cellVolume) = ids D.cellVolume := ids_map D.cellVolume fun _ _ => 0
  have hf0 : Full multiphysics (newMothership multiphysics D.cellVolume) := ⟨rfl, rfl⟩
  have e : ∀ {a}, a ∈ ["blockIDs", "horizon", "volume", "x", "y"] → Exists multiphysics a := by
    intro a ha
    refine .inl ?_
    revert a
    decide
  have hv0 := fun {a} (ha : a ∈ ["blockIDs", "horizon", "volume", "x", "y"]) => new_view (D := D.cellVolume) (e ha)
  obtain ⟨M1, c1, f1, v1, o1⟩ := copy_same hf0 (e (a := "blockIDs") (by decide)) (hv0 (by decide)) (hD.block.trans hz.symm)
  obtain ⟨M2, c2, f2, v2, o2⟩ := copy_same f1 (e (a := "horizon") (by decide))
    ((o1 _ (by decide)).trans (hv0 (by decide))) (hD.horizon.trans hz.symm)
  obtain ⟨M3, c3, f3, v3, o3⟩ := copy_same f2 (e (a := "volume") (by decide))
    ((o2 _ (by decide)).trans ((o1 _ (by decide)).trans (hv0 (by decide)))) hz.symm
  obtain ⟨M4, c4, f4, v4, o4⟩ := copy_same f3 (e (a := "x") (by decide))
    ((o3 _ (by decide)).trans ((o2 _ (by decide)).trans ((o1 _ (by decide)).trans (hv0 (by decide)))))
    (hD.position.trans hz.symm)
  obtain ⟨M5, c5, f5, v5, o5⟩ := copy_same f4 (e (a := "y") (by decide))
    ((o4 _ (by decide)).trans ((o3 _ (by decide)).trans ((o2 _ (by decide)).trans ((o1 _ (by decide)).trans
      (hv0 (by decide)))))) (hD.position.trans hz.symm)
  refine ⟨M5, ?_, f5, ?_, ?_, ?_, ?_, v5, ?_⟩
  · unfold initializeVectors
    simp only [c1, c2, c3, c4, Outcome.ok_bind]
    exact c5
  · rw [o5 _ (by decide), o4 _ (by decide), o3 _ (by decide), o2 _ (by decide), v1]
  · rw [o5 _ (by decide), o4 _ (by decide), o3 _ (by decide), v2]
  · rw [o5 _ (by decide), o4 _ (by decide), v3]
  · rw [o5 _ (by decide), v4]
  · intro a ha hn
    simp only [List.mem_cons, List.not_mem_nil, or_false, not_or] at hn
    rw [o5 _ hn.2.2.2.2, o4 _ hn.2.2.2.1, o3 _ hn.2.2.1, o2 _ hn.2.1, o1 _ hn.1, new_view ha]

/-! ## Examples -/

/-- Two points on two processors. -/
def demoDisc : Disc Int :=
  ⟨[[(4, 1)], [(2, 2)]], [[(4, 30)], [(2, 30)]], [[(4, 5)], [(2, 6)]], [[(4, 100)], [(2, 200)]]⟩

/-- A block with both points on the first processor, one of them a ghost. -/
def demoStartBlock : Block Int := ⟨fun _ _ => ⟨some [[(4, 0), (2, 0)], []], fun _ g => if g = 4 then 0 else 1⟩⟩

example : demoDisc.OneMap ∧ Assembly.lookup demoDisc.initialX 1 2 = some 200 ∧ Exists true "fluidFlow" ∧
    Full true (newMothership true demoDisc.cellVolume) := ⟨⟨rfl, rfl, rfl⟩, rfl, .inr ⟨rfl, by decide⟩, rfl, rfl⟩

example : Good demoDisc.cellVolume demoStartBlock := by
  intro n s q g p h
  obtain ⟨part, hp, hg⟩ := h
  match p, hp with
  | 0, hp => obtain rfl := Option.some.inj hp; simp at hg; subst hg; rfl
  | 1, hp => obtain rfl := Option.some.inj hp; simp at hg; subst hg; rfl
  | p + 2, hp => simp [demoDisc] at hp

example : (startBlocks (fun g => (g : Int)) true demoDisc [demoStartBlock]).map
    (fun b => (b.field "Coordinates" .np1).data) = [some [[(4, 100), (2, 200)], []]] := by decide

end Verif.Synch
