import Mathlib.Algebra.Order.Field.Basic
import Mathlib.Data.Nat.Cast.Order.Basic

/-!
# Specification of gain transitions

Independent of the model: the gain curve of a linear transition.
-/

namespace Visr.GainFader

variable {K : Type*} [Field K] [LinearOrder K]

/-- Portion of a transition of `steps` samples that is completed at the `t`-th sample (counted from 0 at the first
sample after the change): rises linearly from `1/steps` at the first sample to 1 at sample `steps - 1` and stays
there. -/
def progress (steps t : Nat) : K := if t < steps then ((t : K) + 1) / (steps : K) else 1

/-- Gain applied to the `t`-th sample after a change from `g₀` to `g₁`. -/
def gainAt (steps : Nat) (g₀ g₁ : K) (t : Nat) : K := g₀ + (g₁ - g₀) * progress steps t

end Visr.GainFader
