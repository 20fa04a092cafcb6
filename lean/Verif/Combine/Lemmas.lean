import Verif.Combine.Model
import Verif.Field.Lemmas

/-! Helper lemmas: runs of registrations and look-ups, and the table of all fields. -/

namespace Verif.Combine

open Verif.Field

/-- The requests among the calls. -/
def requests (as : List Action) : List Request :=
  as.filterMap fun | .register r => some r | .look _ => none

/-- The labels looked up. -/
def looks (as : List Action) : List String :=
  as.filterMap fun | .register _ => none | .look l => some l

theorem requests_append (as bs : List Action) : requests (as ++ bs) = requests as ++ requests bs := by
  simp [requests]

theorem looks_append (as bs : List Action) : looks (as ++ bs) = looks as ++ looks bs := by
  simp [looks]

theorem act_register {fm : FieldManager} {r : Request} :
    act fm (.register r) = (getFieldId fm r >>= fun x => Outcome.ok x.2) := rfl

theorem perform_append (fm : FieldManager) (as bs : List Action) :
    perform fm (as ++ bs) = (perform fm as >>= fun fm' => perform fm' bs) := by
  induction as generalizing fm with
  | nil => rfl
  | cons a as ih =>
    rw [List.cons_append, perform, perform]
    cases h : act fm a with
    | ok x => simp only [Outcome.ok_bind]; exact ih x
    | fail f => rfl
    | ub => rfl

theorem look_of_mem {fm : FieldManager} {ds : List Request} (hR : Rep fm ds) {l : String}
    (h : l ∈ ds.map Request.label) : ∃ i, getFieldIdByLabel fm l = .ok i := by
  unfold getFieldIdByLabel
  cases hl : fm.labelToIdMap.lookup l with
  | some i => exact ⟨i, rfl⟩
  | none =>
    exfalso
    rw [List.lookup_eq_none_iff] at hl
    obtain ⟨r, hr, rfl⟩ := List.mem_map.1 h
    obtain ⟨i, hi, rfl⟩ := List.getElem_of_mem hr
    have := hl ((ds[i]).label, i) (by
      rw [hR.labels, List.mem_reverse, List.mem_mapIdx]
      exact ⟨i, hi, rfl⟩)
    simp at this

/-- One call ends well or ends the program. -/
theorem act_cases {fm : FieldManager} {ds : List Request} (hR : Rep fm ds) (a : Action) :
    (∃ fm' ds', act fm a = .ok fm' ∧ Rep fm' ds' ∧ (∀ r, r ∈ ds' ↔ r ∈ ds ∨ r ∈ requests [a])) ∨
      act fm a = .fail .terminate := by
  cases a with
  | register r =>
    rcases getFieldId_cases hR r with ⟨_, fm', h1, h2⟩ | ⟨_, h⟩
    · left
      refine ⟨fm', _, ?_, h2, ?_⟩
      · rw [act, h1]; rfl
      · intro q
        rw [mem_addNew]
        simp [requests]
    · right
      rw [act, h]; rfl
  | look l =>
    rw [show act fm (.look l) = (getFieldIdByLabel fm l >>= fun _ => Outcome.ok fm) from rfl]
    cases hg : getFieldIdByLabel fm l with
    | ok i => exact Or.inl ⟨fm, ds, rfl, hR, by simp [requests]⟩
    | fail f =>
      right
      unfold getFieldIdByLabel at hg
      cases hl : fm.labelToIdMap.lookup l with
      | some i => rw [hl] at hg; cases hg
      | none => rw [hl] at hg; simp only [Outcome.fail.injEq] at hg; subst hg; rfl
    | ub =>
      exfalso
      unfold getFieldIdByLabel at hg
      cases hl : fm.labelToIdMap.lookup l <;> rw [hl] at hg <;> cases hg

theorem perform_cases {fm : FieldManager} {ds : List Request} (hR : Rep fm ds) (as : List Action) :
    (∃ fm' ds', perform fm as = .ok fm' ∧ Rep fm' ds' ∧ (∀ r, r ∈ ds' ↔ r ∈ ds ∨ r ∈ requests as)) ∨
      perform fm as = .fail .terminate := by
  induction as generalizing fm ds with
  | nil => exact Or.inl ⟨fm, ds, rfl, hR, by simp [requests]⟩
  | cons a as ih =>
    rcases act_cases hR a with ⟨f1, d1, h1, r1, m1⟩ | h
    · rcases ih r1 with ⟨f2, d2, h2, r2, m2⟩ | h
      · left
        refine ⟨f2, d2, ?_, r2, ?_⟩
        · rw [perform, h1]; exact h2
        · intro r
          rw [m2, m1, show a :: as = [a] ++ as from rfl, requests_append, List.mem_append, or_assoc]
      · right; rw [perform, h1]; exact h
    · right; rw [perform, h]; rfl

/-- Compatible requests and look-ups of what is there end well. -/
theorem perform_ok {fm : FieldManager} {ds : List Request} (hR : Rep fm ds) (as : List Action)
    (hc : ∀ a ∈ ds ++ requests as, ∀ b ∈ ds ++ requests as, SameUpToCase a.label b.label → a = b)
    (hl : ∀ l ∈ looks as, l ∈ ds.map Request.label) : ∃ fm', perform fm as = .ok fm' := by
  induction as generalizing fm ds with
  | nil => exact ⟨fm, rfl⟩
  | cons a as ih =>
    have key : ∃ f1 d1, act fm a = .ok f1 ∧ Rep f1 d1 ∧ (∀ r, r ∈ d1 ↔ r ∈ ds ∨ r ∈ requests [a]) := by
      rcases act_cases hR a with ⟨f1, d1, h⟩ | h
      · exact ⟨f1, d1, h⟩
      · exfalso
        cases a with
        | register r =>
          rcases getFieldId_cases hR r with ⟨_, fm', h1, _⟩ | ⟨hn, _⟩
          · rw [act, h1] at h; cases h
          · apply hn
            by_cases hr : r ∈ ds
            · exact Or.inl hr
            · refine Or.inr fun q hq hs => hr ?_
              have : r = q := hc r (by simp [requests]) q (by simp [hq]) hs
              rw [this]; exact hq
        | look l =>
          obtain ⟨i, hi⟩ := look_of_mem hR (hl l (by simp [looks]))
          rw [act, hi] at h; cases h
    obtain ⟨f1, d1, h1, r1, m1⟩ := key
    have sub : ∀ r, r ∈ d1 ++ requests as → r ∈ ds ++ requests (a :: as) := by
      intro r hr
      rw [show a :: as = [a] ++ as from rfl, requests_append]
      rcases List.mem_append.1 hr with h | h
      · rcases (m1 r).1 h with h | h <;> simp [h]
      · simp [h]
    obtain ⟨f2, h2⟩ := ih r1 (fun x hx y hy => hc x (sub x hx) y (sub y hy)) (by
      intro l h
      have h' := hl l (by
        rw [show a :: as = [a] ++ as from rfl, looks_append]; simp [h])
      obtain ⟨r, hr, rfl⟩ := List.mem_map.1 h'
      exact List.mem_map.2 ⟨r, (m1 r).2 (Or.inl hr), rfl⟩)
    exact ⟨f2, by rw [perform, h1]; exact h2⟩

/-- Two requests for one label with different types end the program. -/
theorem perform_conflict (as : List Action) {a b : Request} (ha : a ∈ requests as) (hb : b ∈ requests as)
    (hs : SameUpToCase a.label b.label) (hne : a ≠ b) : perform FieldManager.empty as = .fail .terminate := by
  rcases perform_cases rep_empty as with ⟨fm', ds', _, h2, h3⟩ | h
  · exact absurd (h2.apart a ((h3 a).2 (Or.inr ha)) b ((h3 b).2 (Or.inr hb)) hs) hne
  · exact h

/-! ## The table of all fields -/

/-- A number for a label in which upper and lower case do not differ. -/
def code (s : String) : Nat := (lowerCase s).foldl (fun n c => 256 * n + c.toNat) 0

theorem code_eq {a b : String} (h : SameUpToCase a b) : code a = code b := by
  unfold SameUpToCase at h
  unfold code lowerCase
  rw [h]

/-- All fields, by the numbers of their labels; of the four labels with two types one type. -/
def table : List (Nat × Request) :=
  [(30140198994026050385774997358, ⟨.node, .vector, .twoStep, "Acceleration"⟩),
   (129508366637002047977102066804078179693, ⟨.node, .vector, .constant, "Angular_Momentum"⟩),
   (7092165985995549028, ⟨.element, .scalar, .constant, "Block_Id"⟩),
   (119000949376290193980614501, ⟨.bond, .scalar, .twoStep, "Bond_Damage"⟩),
   (143863320259650617244083927732755158777269870421362, ⟨.bond, .scalar, .twoStep, "Bond_Damage_Parameter"⟩),
   (679375321708522329984149774471665338132161501120376580960885332622010734, ⟨.bond, .scalar, .twoStep, "Bond_Equivalent_Plastic_Strain"⟩),
   (9428226556537776008029385853897500760507279563396052089, ⟨.bond, .scalar, .constant, "Bond_Stress_Triaxiality"⟩),
   (8574922100286161006072765408105475122753390, ⟨.global, .scalar, .constant, "Bond_Visualization"⟩),
   (143863320259674616060289890824685282190064452203379, ⟨.bond, .scalar, .constant, "Bond_Von_Mises_Stress"⟩),
   (40498751983055240200619842777992945998760506827142934372467303780, ⟨.element, .scalar, .twoStep, "Broken_Bond_Volume_Averaged"⟩),
   (7873750048627223828746614436723, ⟨.element, .fullTensor, .twoStep, "Cauchy_Stress"⟩),
   (132099605295829437655228959673626359928, ⟨.bond, .scalar, .twoStep, "Cauchy_Stress_XX"⟩),
   (132099605295829437655228959673626359929, ⟨.bond, .scalar, .twoStep, "Cauchy_Stress_XY"⟩),
   (132099605295829437655228959673626359930, ⟨.bond, .scalar, .twoStep, "Cauchy_Stress_XZ"⟩),
   (132099605295829437655228959673626360184, ⟨.bond, .scalar, .twoStep, "Cauchy_Stress_YX"⟩),
   (132099605295829437655228959673626360185, ⟨.bond, .scalar, .twoStep, "Cauchy_Stress_YY"⟩),
   (132099605295829437655228959673626360186, ⟨.bond, .scalar, .twoStep, "Cauchy_Stress_YZ"⟩),
   (132099605295829437655228959673626360440, ⟨.bond, .scalar, .twoStep, "Cauchy_Stress_ZX"⟩),
   (132099605295829437655228959673626360441, ⟨.bond, .scalar, .twoStep, "Cauchy_Stress_ZY"⟩),
   (132099605295829437655228959673626360442, ⟨.bond, .scalar, .twoStep, "Cauchy_Stress_ZZ"⟩),
   (7878074376227858401342421299054, ⟨.node, .scalar, .twoStep, "Concentration"⟩),
   (2680769795522011523015243971127798210401878445040624213120665806332773, ⟨.node, .scalar, .twoStep, "Concentration_Flux_Divergence"⟩),
   (7878074456433508979427805127525, ⟨.node, .vector, .twoStep, "Contact_Force"⟩),
   (145324823291457428946382861060481186523349781148793, ⟨.node, .vector, .twoStep, "Contact_Force_Density"⟩),
   (120209894652868141472048499, ⟨.node, .vector, .twoStep, "Coordinates"⟩),
   (132187632300670946603245298772985799528, ⟨.element, .scalar, .constant, "Critical_Stretch"⟩),
   (110369609705317, ⟨.element, .scalar, .twoStep, "Damage"⟩),
   (573160375724043241623826645004330721164348714612, ⟨.element, .fullTensor, .constant, "Deformation_Gradient"⟩),
   (161330303408395914029574479850176657867995399480919834414571384, ⟨.element, .vector, .constant, "Deformation_Gradient_Dot_X"⟩),
   (161330303408395914029574479850176657867995399480919834414571385, ⟨.element, .vector, .constant, "Deformation_Gradient_Dot_Y"⟩),
   (161330303408395914029574479850176657867995399480919834414571386, ⟨.element, .vector, .constant, "Deformation_Gradient_Dot_Z"⟩),
   (41300557672549353991571066841645224414206822267115483103427000440, ⟨.bond, .scalar, .constant, "Deformation_Gradient_Inv_XX"⟩),
   (41300557672549353991571066841645224414206822267115483103427000441, ⟨.bond, .scalar, .constant, "Deformation_Gradient_Inv_XY"⟩),
   (41300557672549353991571066841645224414206822267115483103427000442, ⟨.bond, .scalar, .constant, "Deformation_Gradient_Inv_XZ"⟩),
   (41300557672549353991571066841645224414206822267115483103427000696, ⟨.bond, .scalar, .constant, "Deformation_Gradient_Inv_YX"⟩),
   (41300557672549353991571066841645224414206822267115483103427000697, ⟨.bond, .scalar, .constant, "Deformation_Gradient_Inv_YY"⟩),
   (41300557672549353991571066841645224414206822267115483103427000698, ⟨.bond, .scalar, .constant, "Deformation_Gradient_Inv_YZ"⟩),
   (41300557672549353991571066841645224414206822267115483103427000952, ⟨.bond, .scalar, .constant, "Deformation_Gradient_Inv_ZX"⟩),
   (41300557672549353991571066841645224414206822267115483103427000953, ⟨.bond, .scalar, .constant, "Deformation_Gradient_Inv_ZY"⟩),
   (41300557672549353991571066841645224414206822267115483103427000954, ⟨.bond, .scalar, .constant, "Deformation_Gradient_Inv_ZZ"⟩),
   (37562638383450897883059103007003818142226757360836472, ⟨.element, .vector, .constant, "Deformation_Gradient_X"⟩),
   (37562638383450897883059103007003818142226757360836473, ⟨.element, .vector, .constant, "Deformation_Gradient_Y"⟩),
   (37562638383450897883059103007003818142226757360836474, ⟨.element, .vector, .constant, "Deformation_Gradient_Z"⟩),
   (630198027914915637263579384173295227725012501322055104950126, ⟨.bond, .scalar, .twoStep, "Deviatoric_Back_Extension"⟩),
   (2461711046542639208060856970382023366978921826311886958446, ⟨.element, .scalar, .constant, "Deviatoric_Normalization"⟩),
   (10572968437102569268148720266200919891489059526255346047221332799342, ⟨.bond, .scalar, .twoStep, "Deviatoric_Plastic_Extension"⟩),
   (474181366065894775156590, ⟨.element, .scalar, .twoStep, "Dilatation"⟩),
   (2462090417399698557510554318949841524181476069752837861230, ⟨.element, .scalar, .constant, "Dilatation_Normalization"⟩),
   (31075983339184541716606971508, ⟨.node, .vector, .twoStep, "Displacement"⟩),
   (478958571739090163558756, ⟨.element, .scalar, .constant, "Element_Id"⟩),
   (636769273043760260096498333450948548276709358455580675631470, ⟨.element, .scalar, .twoStep, "Equivalent_Plastic_Strain"⟩),
   (37964631036580575974637233437779070657260846764881017, ⟨.node, .vector, .twoStep, "External_Force_Density"⟩),
   (136144405022727751613547778918314237813, ⟨.node, .scalar, .twoStep, "Fluid_Pressure_U"⟩),
   (136144405022727751613547778918314237814, ⟨.node, .scalar, .twoStep, "Fluid_Pressure_V"⟩),
   (136144405022727751613547778918314237817, ⟨.node, .scalar, .twoStep, "Fluid_Pressure_Y"⟩),
   (31698589727657092010763449465, ⟨.node, .scalar, .twoStep, "Flux_Density"⟩),
   (531814086756284280955958953488835429, ⟨.node, .scalar, .twoStep, "Flux_Divergence"⟩),
   (34852988455800475496600038703364473381223, ⟨.element, .scalar, .twoStep, "Flying_Point_Flag"⟩),
   (439956431717, ⟨.node, .vector, .twoStep, "Force"⟩),
   (8115763699472844490891722323065, ⟨.node, .vector, .twoStep, "Force_Density"⟩),
   (9906010429928536467995873126922463745373293008202790253, ⟨.global, .scalar, .constant, "Global_Angular_Momentum"⟩),
   (151153723601204475116917912478348607159209607456633, ⟨.global, .scalar, .constant, "Global_Kinetic_Energy"⟩),
   (38695353241908345635123282430064909011599700207629677, ⟨.global, .scalar, .constant, "Global_Linear_Momentum"⟩),
   (182774672445121079393424253916644160679858719754964414926756270995084697959, ⟨.element, .scalar, .constant, "Gradient_Weight_Evaluation_Flag"⟩),
   (35201121473762728971071053430122951761784, ⟨.bond, .scalar, .constant, "Gradient_Weight_X"⟩),
   (35201121473762728971071053430122951761785, ⟨.bond, .scalar, .constant, "Gradient_Weight_Y"⟩),
   (35201121473762728971071053430122951761786, ⟨.bond, .scalar, .constant, "Gradient_Weight_Z"⟩),
   (151187754804120748746017473710159484120087876692334, ⟨.element, .fullTensor, .constant, "Green_Lagrange_Strain"⟩),
   (29395934764494702, ⟨.element, .scalar, .constant, "Horizon"⟩),
   (10002922694977606149391211398307152719210989742811870329, ⟨.node, .vector, .twoStep, "Hourglass_Force_Density"⟩),
   (9184357227600838043611542190087174691057518, ⟨.bond, .scalar, .constant, "Influence_Function"⟩),
   (547430350041439416623803563507807333, ⟨.bond, .scalar, .constant, "Influence_State"⟩),
   (607324856010045943397449466767478409023004438132, ⟨.element, .scalar, .twoStep, "Jacobian_Determinant"⟩),
   (2178570950657053200538860086519673, ⟨.element, .scalar, .constant, "Kinetic_Energy"⟩),
   (49021885775844622525653723037308369383461643624514319925038720861825103257393, ⟨.element, .scalar, .constant, "Lagrange_Multiplier_Deviatoric_1"⟩),
   (49021885775844622525653723037308369383461643624514319925038720861825103257394, ⟨.element, .scalar, .constant, "Lagrange_Multiplier_Deviatoric_2"⟩),
   (49021885775844622525653723037308369383461643624514319925038720861825103257395, ⟨.element, .scalar, .constant, "Lagrange_Multiplier_Deviatoric_3"⟩),
   (49021885775844622525653723037308369383461643624514319925038720861825103257396, ⟨.element, .scalar, .constant, "Lagrange_Multiplier_Deviatoric_4"⟩),
   (49021885775844622525653723037308369383461643624514319925038720861825103257397, ⟨.element, .scalar, .constant, "Lagrange_Multiplier_Deviatoric_5"⟩),
   (49021885775844622525653723037308369383461643624514319925038720861825103257398, ⟨.element, .scalar, .constant, "Lagrange_Multiplier_Deviatoric_6"⟩),
   (49021885775844622525653723037308369383461643624514324713372124290776841477937, ⟨.element, .scalar, .constant, "Lagrange_Multiplier_Dilatation_1"⟩),
   (49021885775844622525653723037308369383461643624514324713372124290776841477938, ⟨.element, .scalar, .constant, "Lagrange_Multiplier_Dilatation_2"⟩),
   (49021885775844622525653723037308369383461643624514324713372124290776841477939, ⟨.element, .scalar, .constant, "Lagrange_Multiplier_Dilatation_3"⟩),
   (49021885775844622525653723037308369383461643624514324713372124290776841477940, ⟨.element, .scalar, .constant, "Lagrange_Multiplier_Dilatation_4"⟩),
   (49021885775844622525653723037308369383461643624514324713372124290776841477941, ⟨.element, .scalar, .constant, "Lagrange_Multiplier_Dilatation_5"⟩),
   (49021885775844622525653723037308369383461643624514324713372124290776841477942, ⟨.element, .scalar, .constant, "Lagrange_Multiplier_Dilatation_6"⟩),
   (119165702792289, ⟨.element, .scalar, .twoStep, "Lambda"⟩),
   (2417313685807898435506703585494617249757228914, ⟨.element, .fullTensor, .twoStep, "Left_Stretch_Tensor"⟩),
   (40555793846555246558558035501817660436502977057880184, ⟨.bond, .scalar, .twoStep, "Left_Stretch_Tensor_XX"⟩),
   (40555793846555246558558035501817660436502977057880185, ⟨.bond, .scalar, .twoStep, "Left_Stretch_Tensor_XY"⟩),
   (40555793846555246558558035501817660436502977057880186, ⟨.bond, .scalar, .twoStep, "Left_Stretch_Tensor_XZ"⟩),
   (40555793846555246558558035501817660436502977057880440, ⟨.bond, .scalar, .twoStep, "Left_Stretch_Tensor_YX"⟩),
   (40555793846555246558558035501817660436502977057880441, ⟨.bond, .scalar, .twoStep, "Left_Stretch_Tensor_YY"⟩),
   (40555793846555246558558035501817660436502977057880442, ⟨.bond, .scalar, .twoStep, "Left_Stretch_Tensor_YZ"⟩),
   (40555793846555246558558035501817660436502977057880696, ⟨.bond, .scalar, .twoStep, "Left_Stretch_Tensor_ZX"⟩),
   (40555793846555246558558035501817660436502977057880697, ⟨.bond, .scalar, .twoStep, "Left_Stretch_Tensor_ZY"⟩),
   (40555793846555246558558035501817660436502977057880698, ⟨.bond, .scalar, .twoStep, "Left_Stretch_Tensor_ZZ"⟩),
   (562906460203813284916790222847767917, ⟨.node, .vector, .constant, "Linear_Momentum"⟩),
   (37238843588709804468349949771832228078963, ⟨.node, .vector, .constant, "Model_Coordinates"⟩),
   (2461916179818481974027601250051254170001173861, ⟨.element, .scalar, .constant, "Neighborhood_Volume"⟩),
   (10577598235379443268520958555361788152944689783065698668, ⟨.element, .fullTensor, .constant, "Nonhomogeneous_Integral"⟩),
   (45430438588687407272014488443273345372403001051570277392558550643, ⟨.global, .scalar, .constant, "Nonlinear_Solver_Iterations"⟩),
   (177462748909559716413134161491006228171045364454360538431188325, ⟨.element, .scalar, .constant, "Normalized_Weighted_Volume"⟩),
   (2463311330861464202199726979695600656937087603, ⟨.element, .scalar, .constant, "Number_Of_Neighbors"⟩),
   (2259142580279506103332578435948908, ⟨.element, .vector, .constant, "OBC_Functional"⟩),
   (8903705356371483529331827110501, ⟨.element, .scalar, .twoStep, "Pals_Pressure"⟩),
   (2279350429397031060827170228499315, ⟨.element, .fullTensor, .twoStep, "Partial_Stress"⟩),
   (583675729032420822921611081028696184, ⟨.bond, .scalar, .constant, "Piola_Stress_XX"⟩),
   (583675729032420822921611081028696185, ⟨.bond, .scalar, .constant, "Piola_Stress_XY"⟩),
   (583675729032420822921611081028696186, ⟨.bond, .scalar, .constant, "Piola_Stress_XZ"⟩),
   (583675729032420822921611081028696440, ⟨.bond, .scalar, .constant, "Piola_Stress_YX"⟩),
   (583675729032420822921611081028696441, ⟨.bond, .scalar, .constant, "Piola_Stress_YY"⟩),
   (583675729032420822921611081028696442, ⟨.bond, .scalar, .constant, "Piola_Stress_YZ"⟩),
   (583675729032420822921611081028696696, ⟨.bond, .scalar, .constant, "Piola_Stress_ZX"⟩),
   (583675729032420822921611081028696697, ⟨.bond, .scalar, .constant, "Piola_Stress_ZY"⟩),
   (583675729032420822921611081028696698, ⟨.bond, .scalar, .constant, "Piola_Stress_ZZ"⟩),
   (8102661152186463597, ⟨.element, .scalar, .constant, "Proc_Num"⟩),
   (9883630803883850530442004014483377173853299, ⟨.bond, .scalar, .constant, "Quadrature_Weights"⟩),
   (125762622027123, ⟨.element, .scalar, .constant, "Radius"⟩),
   (594182409966606591500961168552587122, ⟨.element, .fullTensor, .twoStep, "Rotation_Tensor"⟩),
   (9968726635410311572635389732419161510869112, ⟨.bond, .scalar, .twoStep, "Rotation_Tensor_XX"⟩),
   (9968726635410311572635389732419161510869113, ⟨.bond, .scalar, .twoStep, "Rotation_Tensor_XY"⟩),
   (9968726635410311572635389732419161510869114, ⟨.bond, .scalar, .twoStep, "Rotation_Tensor_XZ"⟩),
   (9968726635410311572635389732419161510869368, ⟨.bond, .scalar, .twoStep, "Rotation_Tensor_YX"⟩),
   (9968726635410311572635389732419161510869369, ⟨.bond, .scalar, .twoStep, "Rotation_Tensor_YY"⟩),
   (9968726635410311572635389732419161510869370, ⟨.bond, .scalar, .twoStep, "Rotation_Tensor_YZ"⟩),
   (9968726635410311572635389732419161510869624, ⟨.bond, .scalar, .twoStep, "Rotation_Tensor_ZX"⟩),
   (9968726635410311572635389732419161510869625, ⟨.bond, .scalar, .twoStep, "Rotation_Tensor_ZY"⟩),
   (9968726635410311572635389732419161510869626, ⟨.bond, .scalar, .twoStep, "Rotation_Tensor_ZZ"⟩),
   (658861704283496862554142544227880366036900541285, ⟨.element, .fullTensor, .constant, "Shape_Tensor_Inverse"⟩),
   (168737416570488971281976636980285614841224617944953, ⟨.element, .scalar, .constant, "Stored_Elastic_Energy"⟩),
   (3112655939134727324314925367423860397863128075289902577825849331512441, ⟨.element, .scalar, .constant, "Stored_Elastic_Energy_Density"⟩),
   (599475961653612690579559531217576300, ⟨.element, .fullTensor, .constant, "Stress_Integral"⟩),
   (10057537695470377303511305724148412133766265, ⟨.element, .scalar, .constant, "Stress_Triaxiality"⟩),
   (724746488557761764818792863824485476532836690291066064367474, ⟨.element, .scalar, .constant, "Surface_Correction_Factor"⟩),
   (140714372884176120560579173, ⟨.node, .scalar, .twoStep, "Temperature"⟩),
   (10139539156589577648880433793089115746363237, ⟨.node, .scalar, .twoStep, "Temperature_Change"⟩),
   (737127709741164440148933849357817630766028604931957847321957, ⟨.element, .scalar, .constant, "Undamaged_Weighted_Volume"⟩),
   (11247696776169057729593578630872835578270706366383747955, ⟨.element, .fullTensor, .twoStep, "Unrotated_Cauchy_Stress"⟩),
   (188705038316291934045861060903137831029132547181395278336850040, ⟨.bond, .scalar, .twoStep, "Unrotated_Cauchy_Stress_XX"⟩),
   (188705038316291934045861060903137831029132547181395278336850041, ⟨.bond, .scalar, .twoStep, "Unrotated_Cauchy_Stress_XY"⟩),
   (188705038316291934045861060903137831029132547181395278336850042, ⟨.bond, .scalar, .twoStep, "Unrotated_Cauchy_Stress_XZ"⟩),
   (188705038316291934045861060903137831029132547181395278336850296, ⟨.bond, .scalar, .twoStep, "Unrotated_Cauchy_Stress_YX"⟩),
   (188705038316291934045861060903137831029132547181395278336850297, ⟨.bond, .scalar, .twoStep, "Unrotated_Cauchy_Stress_YY"⟩),
   (188705038316291934045861060903137831029132547181395278336850298, ⟨.bond, .scalar, .twoStep, "Unrotated_Cauchy_Stress_YZ"⟩),
   (188705038316291934045861060903137831029132547181395278336850552, ⟨.bond, .scalar, .twoStep, "Unrotated_Cauchy_Stress_ZX"⟩),
   (188705038316291934045861060903137831029132547181395278336850553, ⟨.bond, .scalar, .twoStep, "Unrotated_Cauchy_Stress_ZY"⟩),
   (188705038316291934045861060903137831029132547181395278336850554, ⟨.bond, .scalar, .twoStep, "Unrotated_Cauchy_Stress_ZZ"⟩),
   (3165945188120706096545165259271938776062729356279768631353550815457134, ⟨.element, .fullTensor, .constant, "Unrotated_Rate_Of_Deformation"⟩),
   (53115746265261720254255091310501319584780039959846634758242894397900482115704, ⟨.bond, .scalar, .constant, "Unrotated_Rate_Of_Deformation_XX"⟩),
   (53115746265261720254255091310501319584780039959846634758242894397900482115705, ⟨.bond, .scalar, .constant, "Unrotated_Rate_Of_Deformation_XY"⟩),
   (53115746265261720254255091310501319584780039959846634758242894397900482115706, ⟨.bond, .scalar, .constant, "Unrotated_Rate_Of_Deformation_XZ"⟩),
   (53115746265261720254255091310501319584780039959846634758242894397900482115960, ⟨.bond, .scalar, .constant, "Unrotated_Rate_Of_Deformation_YX"⟩),
   (53115746265261720254255091310501319584780039959846634758242894397900482115961, ⟨.bond, .scalar, .constant, "Unrotated_Rate_Of_Deformation_YY"⟩),
   (53115746265261720254255091310501319584780039959846634758242894397900482115962, ⟨.bond, .scalar, .constant, "Unrotated_Rate_Of_Deformation_YZ"⟩),
   (53115746265261720254255091310501319584780039959846634758242894397900482116216, ⟨.bond, .scalar, .constant, "Unrotated_Rate_Of_Deformation_ZX"⟩),
   (53115746265261720254255091310501319584780039959846634758242894397900482116217, ⟨.bond, .scalar, .constant, "Unrotated_Rate_Of_Deformation_ZY"⟩),
   (53115746265261720254255091310501319584780039959846634758242894397900482116218, ⟨.bond, .scalar, .constant, "Unrotated_Rate_Of_Deformation_ZZ"⟩),
   (8531344294788297849, ⟨.node, .vector, .twoStep, "Velocity"⟩),
   (40288134351529427782065511734393254014580, ⟨.element, .fullTensor, .constant, "Velocity_Gradient"⟩),
   (2640323172861832579125445377025196295099539320, ⟨.element, .vector, .constant, "Velocity_Gradient_X"⟩),
   (675922732252629140256114016518450251545482066040, ⟨.bond, .scalar, .constant, "Velocity_Gradient_XX"⟩),
   (675922732252629140256114016518450251545482066041, ⟨.bond, .scalar, .constant, "Velocity_Gradient_XY"⟩),
   (675922732252629140256114016518450251545482066042, ⟨.bond, .scalar, .constant, "Velocity_Gradient_XZ"⟩),
   (2640323172861832579125445377025196295099539321, ⟨.element, .vector, .constant, "Velocity_Gradient_Y"⟩),
   (675922732252629140256114016518450251545482066296, ⟨.bond, .scalar, .constant, "Velocity_Gradient_YX"⟩),
   (675922732252629140256114016518450251545482066297, ⟨.bond, .scalar, .constant, "Velocity_Gradient_YY"⟩),
   (675922732252629140256114016518450251545482066298, ⟨.bond, .scalar, .constant, "Velocity_Gradient_YZ"⟩),
   (2640323172861832579125445377025196295099539322, ⟨.element, .vector, .constant, "Velocity_Gradient_Z"⟩),
   (675922732252629140256114016518450251545482066552, ⟨.bond, .scalar, .constant, "Velocity_Gradient_ZX"⟩),
   (675922732252629140256114016518450251545482066553, ⟨.bond, .scalar, .constant, "Velocity_Gradient_ZY"⟩),
   (675922732252629140256114016518450251545482066554, ⟨.bond, .scalar, .constant, "Velocity_Gradient_ZZ"⟩),
   (130220933082469, ⟨.element, .scalar, .constant, "Volume"⟩),
   (157427487079510627633441144179272282995, ⟨.element, .scalar, .constant, "Von_Mises_Stress"⟩),
   (619940200495911265967652641516645733, ⟨.element, .scalar, .constant, "Weighted_Volume"⟩)]

/-- The other types: of hypoelastic materials, of bond associated materials, of the J-integral. -/
def override (hypo assoc jint : Bool) : List (Nat × Request) :=
  (if hypo then [(573160375724043241623826645004330721164348714612,
    ⟨.element, .fullTensor, .twoStep, "Deformation_Gradient"⟩)] else [])
  ++ (if assoc then [(607324856010045943397449466767478409023004438132,
      ⟨.bond, .scalar, .constant, "Jacobian_Determinant"⟩),
    (151187754804120748746017473710159484120087876692334,
      ⟨.element, .fullTensor, .twoStep, "Green_Lagrange_Strain"⟩)] else [])
  ++ (if jint then [(40288134351529427782065511734393254014580,
      ⟨.element, .fullTensor, .twoStep, "Velocity_Gradient"⟩)] else [])

/-- The request is the one of the table. -/
def Listed (hypo assoc jint : Bool) (r : Request) : Prop :=
  (override hypo assoc jint ++ table).lookup (code r.label) = some r

instance (hypo assoc jint : Bool) (r : Request) : Decidable (Listed hypo assoc jint r) := by
  unfold Listed; infer_instance

theorem Listed.compatible {h a j : Bool} {r q : Request} (hr : Listed h a j r) (hq : Listed h a j q)
    (hs : SameUpToCase r.label q.label) : r = q := by
  unfold Listed at hr hq
  rw [code_eq hs, hq] at hr
  exact (Option.some.inj hr).symm

/-- The numbers of the four labels with two types. -/
def fourCodes : List Nat := [573160375724043241623826645004330721164348714612,
  607324856010045943397449466767478409023004438132, 151187754804120748746017473710159484120087876692334,
  40288134351529427782065511734393254014580]

/-- The request with the number `k` is the one of the table, or has one of the four labels and is in `al`. -/
def FitsAt (al : List Request) (r : Request) (k : Nat) : Prop :=
  if k ∈ fourCodes then r ∈ al else table.lookup k = some r

instance (al : List Request) (r : Request) (k : Nat) : Decidable (FitsAt al r k) := by unfold FitsAt; infer_instance

/-- The request is the one of the table, or has one of the four labels and is in `al`. -/
def Fits (al : List Request) (r : Request) : Prop := FitsAt al r (code r.label)

instance (al : List Request) (r : Request) : Decidable (Fits al r) := by unfold Fits; infer_instance

theorem override_lookup (h a j : Bool) {k : Nat} (hk : k ∉ fourCodes) :
    (override h a j ++ table).lookup k = table.lookup k := by
  simp only [fourCodes, List.mem_cons, List.not_mem_nil, or_false, not_or] at hk
  obtain ⟨h1, h2, h3, h4⟩ := hk
  have e : (override h a j).lookup k = none := by
    rw [List.lookup_eq_none_iff]
    intro p hp
    simp only [override, List.mem_append] at hp
    rcases hp with (hp | hp) | hp
    · cases h <;> simp at hp; subst hp; simpa using h1
    · cases a <;> simp at hp
      rcases hp with hp | hp <;> subst hp
      · simpa using h2
      · simpa using h3
    · cases j <;> simp at hp; subst hp; simpa using h4
  rw [List.lookup_append, e]; rfl

theorem Fits.listed {al : List Request} {r : Request} (hf : Fits al r) (h a j : Bool)
    (hal : ∀ q ∈ al, Listed h a j q) : Listed h a j r := by
  unfold Fits FitsAt at hf
  split at hf
  · exact hal r hf
  · next hk =>
    unfold Listed
    rw [override_lookup h a j hk]; exact hf

/-- Look-ups only of fields of the program itself. -/
def LooksCore (as : List Action) : Prop := ∀ l ∈ looks as, l ∈ (requests (coreFirst ++ coreRest)).map Request.label

instance (as : List Action) : Decidable (LooksCore as) := by unfold LooksCore; infer_instance

end Verif.Combine
