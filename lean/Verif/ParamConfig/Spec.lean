import Verif.ParamConfig.Model

/-!
# What a configuration promises about a parameter
-/

namespace Visr.ParamConfig
open Visr Visr.TypeId

/-- The parameter has the size stated by the configuration. -/
def Size : Config → Value → Prop
  | .empty, .plain => True
  | .vector n, .vector l => l.length = n
  | .matrix r c, .matrix c' rows => c' = c ∧ rows.length = r ∧ ∀ row ∈ rows, row.length = c
  | .matrix r c, .panning c' rows => c' = c ∧ rows.length = r ∧ ∀ row ∈ rows, row.length = c
  | .matrix r c, .biquads rows => rows.length = r ∧ ∀ row ∈ rows, row.length = c
  | .interpolation n, .interpolation l => l.length = n
  | .timeFrequency b ch f, .timeFrequency ch' cols rows =>
    ch' = ch ∧ cols = b ∧ rows.length = f * ch ∧ ∀ row ∈ rows, row.length = b
  | _, _ => False

/-- All elements have their default value. -/
def Neutral : Value → Prop
  | .plain => True
  | .vector l | .interpolation l => ∀ x ∈ l, x = none
  | .matrix _ rows | .panning _ rows | .biquads rows | .timeFrequency _ _ rows => ∀ row ∈ rows, ∀ x ∈ row, x = none

/-- The classes that are registered in the factory. -/
def Registered (c : Cls) : Prop := c ∈ pmlClasses ∨ c ∈ panningClasses

end Visr.ParamConfig
