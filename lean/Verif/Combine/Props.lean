import Verif.Combine.Parts

/-! # C232: which components can be used together in one analysis -/

namespace Verif.Combine

open Verif.Field

/-- An analysis can be constructed exactly if it has none of the listed combinations, whatever the number and the order of
its blocks, contact models and compute classes. -/
theorem C232_starts (a : Analysis) : (∃ fm, construct a = .ok fm) ↔ ¬ a.Conflict := by
  constructor
  · rintro ⟨fm, h⟩ hc
    rw [construct_conflict a hc] at h
    cases h
  · exact construct_ok a

/-- Three blocks with two kinds of materials, contact, damage and output: it starts. -/
example : ∃ fm, construct
    ⟨true, some [.shortRangeForce],
      [(.elasticAssociated, some (.criticalStretch true)), (.elasticCorrespondence true, none), (.pals, none)],
      [.deformationGradient, .jIntegral]⟩ = .ok fm := by
  rw [C232_starts]
  simp [Analysis.Conflict, Analysis.HasMaterial, Analysis.HasDamage, IsHypoelastic, IsStressDamage]

/-- With one of these combinations the construction ends the program. -/
theorem C232_terminates (a : Analysis) (hc : a.Conflict) : construct a = .fail .terminate :=
  construct_conflict a hc

/-- A single hypoelastic block with the deformation gradient in the output. -/
example : construct ⟨false, none, [(.elasticHypoelastic, none)], [.deformationGradient]⟩ = .fail .terminate :=
  C232_terminates _ (Or.inl ⟨⟨_, List.mem_singleton.2 rfl, Or.inl rfl⟩, Or.inr (Or.inr (Or.inl List.mem_cons_self))⟩)

/-- A single bond associated block with the Johnson-Cook damage model. -/
example : construct ⟨false, none, [(.elasticPlasticAssociated, some .johnsonCook)], []⟩ = .fail .terminate :=
  C232_terminates _ (Or.inr ⟨⟨_, List.mem_singleton.2 rfl, Or.inr (Or.inl rfl)⟩,
    ⟨_, List.mem_singleton.2 rfl, _, rfl, Or.inl rfl⟩⟩)

/-- Once the analysis is constructed every component's field is there with the type the component asked for: asking again
gives an identifier whose specification has this type, and changes nothing. -/
theorem C232_fields (a : Analysis) (fm : FieldManager) (h : construct a = .ok fm) (r : Request)
    (hr : Action.register r ∈ a.actions) :
    ∃ id, getFieldId fm r = .ok (id, fm) ∧ getFieldIdByLabel fm r.label = .ok id
      ∧ getFieldSpec fm id = .ok ⟨r.relation, r.length, r.temporal, r.label, id⟩ := by
  rcases perform_cases rep_empty a.actions with ⟨fm', ds, h1, h2, h3⟩ | hx
  · unfold construct at h
    rw [h] at h1
    obtain rfl := Outcome.ok.inj h1
    have hm : r ∈ ds := (h3 r).2 (Or.inr (List.mem_filterMap.2 ⟨_, hr, rfl⟩))
    have hlt : ds.idxOf r < ds.length := List.idxOf_lt_length_iff.2 hm
    refine ⟨ds.idxOf r, getFieldId_mem h2 hm, ?_, ?_⟩
    · unfold getFieldIdByLabel
      rw [h2.labels, (lookup_reverse_mapIdx (labels_nodup h2) r.label (ds.idxOf r)).2
        ⟨hlt, by rw [List.getElem_idxOf]⟩]
    · unfold getFieldSpec
      have hl : ¬ ds.idxOf r ≥ fm.fieldSpecs.length := by
        rw [h2.specs, List.length_mapIdx]; omega
      rw [dif_neg hl]
      congr 1
      simp only [h2.specs, List.getElem_mapIdx, List.getElem_idxOf]
      rfl
  · unfold construct at h; rw [h] at hx; cases hx

/-- The bond damage of an elastic material in one block is there when the other block is of another kind. -/
example : ∃ fm id, construct ⟨false, none, [(.viscoelastic, none), (.elastic false false, none)], []⟩ = .ok fm
    ∧ getFieldSpec fm id = .ok ⟨.bond, .scalar, .twoStep, "Bond_Damage", id⟩ := by
  obtain ⟨fm, hfm⟩ := (C232_starts ⟨false, none, [(.viscoelastic, none), (.elastic false false, none)], []⟩).2 (by
    simp [Analysis.Conflict, Analysis.HasMaterial, Analysis.HasDamage, IsHypoelastic, IsStressDamage])
  obtain ⟨id, _, _, h⟩ := C232_fields _ fm hfm ⟨.bond, .scalar, .twoStep, "Bond_Damage"⟩ (by decide +kernel)
  exact ⟨fm, id, hfm, h⟩

/-- Whether an analysis starts depends neither on the order of its blocks nor on that of its compute classes, and
contact and fluid pressure do not matter. -/
theorem C232_order (a b : Analysis) (hb : ∀ x, x ∈ a.blocks ↔ x ∈ b.blocks) (hc : ∀ x, x ∈ a.computes ↔ x ∈ b.computes) :
    (∃ fm, construct a = .ok fm) ↔ ∃ fm, construct b = .ok fm := by
  rw [C232_starts, C232_starts]
  simp only [Analysis.Conflict, Analysis.HasMaterial, Analysis.HasDamage, hb, hc]

example : (∃ fm, construct ⟨false, none, [(.pals, none), (.lcm, none)], [.force]⟩ = .ok fm) ↔
    ∃ fm, construct ⟨true, some [], [(.lcm, none), (.pals, none), (.lcm, none)], [.force, .force]⟩ = .ok fm :=
  C232_order _ _ (by simp [or_comm]) (by simp)

end Verif.Combine
