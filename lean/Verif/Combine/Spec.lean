import Verif.Combine.Model

/-! What the claims about combinations of components say, without the lists of fields. -/

namespace Verif.Combine

open Verif.Field

/-- The three hypoelastic correspondence materials. -/
def IsHypoelastic (m : Material) : Prop :=
  m = .elasticHypoelastic ∨ m = .elasticPlasticHypoelastic ∨ m = .hardeningHypoelastic

/-- The three bond associated correspondence materials. -/
def IsBondAssociated (m : Material) : Prop :=
  m = .elasticAssociated ∨ m = .elasticPlasticAssociated ∨ m = .hardeningAssociated

/-- The four remaining correspondence materials. -/
def IsCorrespondence (m : Material) : Prop :=
  m = .elasticPlasticCorrespondence ∨ (∃ thermal, m = .elasticCorrespondence thermal) ∨ m = .needlemanCorrespondence
    ∨ m = .hardeningCorrespondence

/-- The damage models that use the stress of the material. -/
def IsStressDamage (d : Damage) : Prop := d = .johnsonCook ∨ d = .vonMisesStress

/-- Some block has a material of the kind. -/
def Analysis.HasMaterial (a : Analysis) (P : Material → Prop) : Prop := ∃ b ∈ a.blocks, P b.1

/-- Some block has a damage model of the kind. -/
def Analysis.HasDamage (a : Analysis) (P : Damage → Prop) : Prop := ∃ b ∈ a.blocks, ∃ d, b.2 = some d ∧ P d

/-- The combinations that cannot be used: a hypoelastic material together with a material of one of the other two
correspondence kinds, with the output of the deformation gradient or with the J-integral; a bond associated material
together with a damage model that uses the stress. -/
def Analysis.Conflict (a : Analysis) : Prop :=
  (a.HasMaterial IsHypoelastic ∧
    (a.HasMaterial IsBondAssociated ∨ a.HasMaterial IsCorrespondence ∨ .deformationGradient ∈ a.computes
      ∨ .jIntegral ∈ a.computes)) ∨
  (a.HasMaterial IsBondAssociated ∧ a.HasDamage IsStressDamage)

end Verif.Combine
