import Verif.Params.Model

/-!
# What the input means
-/

noncomputable section

namespace Verif.Params

open Verif
open scoped Classical

/-- The given constants are those of the isotropic material with bulk modulus `K` and shear modulus `G`. -/
def Describes (K G : ℝ) (c : Constants) : Prop :=
  (∀ k, c.bulk = some k → k = K) ∧ (∀ g, c.shear = some g → g = G) ∧
  (∀ e, c.young = some e → e = 9 * K * G / (3 * K + G)) ∧
  (∀ n, c.poisson = some n → n = (3 * K - 2 * G) / (2 * (3 * K + G)))

/-- Two of the four constants are given. -/
def TwoGiven (c : Constants) : Prop :=
  (c.bulk.isSome ∧ c.shear.isSome ∧ c.young = none ∧ c.poisson = none) ∨
  (c.bulk.isSome ∧ c.shear = none ∧ c.young.isSome ∧ c.poisson = none) ∨
  (c.bulk.isSome ∧ c.shear = none ∧ c.young = none ∧ c.poisson.isSome) ∨
  (c.bulk = none ∧ c.shear.isSome ∧ c.young.isSome ∧ c.poisson = none) ∨
  (c.bulk = none ∧ c.shear.isSome ∧ c.young = none ∧ c.poisson.isSome) ∨
  (c.bulk = none ∧ c.shear = none ∧ c.young.isSome ∧ c.poisson.isSome)

/-- A name that stands for all blocks not named elsewhere. -/
def MeansDefault (name : String) : Prop := name = "Default" ∨ name = "default" ∨ name = "DEFAULT"

/-- What the input gives for a block: the horizon of the last definition that names it. -/
def givenFor (ds : List HorizonDef) (name : String) : Option HorizonValue :=
  (ds.reverse.find? fun d => name ∈ d.names).map HorizonDef.horizon

/-- The horizon of the last definition that names the default. -/
def givenDefault (ds : List HorizonDef) : Option HorizonValue :=
  (ds.reverse.find? fun d => ∃ n ∈ d.names, MeansDefault n).map HorizonDef.horizon

/-- A text consisting of decimal digits. -/
def Digits (ds : List Char) : Prop := ds ≠ [] ∧ ∀ c ∈ ds, c.isDigit

end Verif.Params
