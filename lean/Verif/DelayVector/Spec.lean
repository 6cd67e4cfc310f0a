import Verif.DelayLine.Model
import Mathlib.Algebra.Order.Field.Basic

/-!
# Specification of parameter transitions in `rcl::DelayVector` and `rcl::DelayMatrix`
-/

namespace Visr.DelayVector

variable {K α : Type*}

/-- The parameters (vectors, or matrices for `rcl::DelayMatrix`) in force before and after the latest change, and the number of processed blocks since it,
after a history of control inputs (one entry per `process()` call). -/
def targets (initial : α) (h : List (Option α)) : α × α × Nat :=
  h.foldl (fun a c => match c with
    | none => (a.1, a.2.1, a.2.2 + 1)
    | some g => (a.2.1, g, 1)) (initial, initial, 0)

/-- Value of a parameter after `m` blocks of a linear transition over `B` blocks from `p` to `q`. -/
def paramAt [Field K] (B : Nat) (p q : K) (m : Nat) : K := p + (q - p) * (((min m B : Nat) : K) / (B : K))

/-- Changes arrive only after the previous transition of `B` blocks is complete. -/
def Calm (B : Nat) (initial : α) (h : List (Option α)) : Prop :=
  ∀ p g, (p ++ [some g]) <+: h → B ≤ (targets initial p).2.2 ∨ ∀ c ∈ p, c = none

/-- The nominal delay `v` (in seconds) can be used with a delay line for `M` samples: the policy accepts it, and the
samples needed by the interpolation (half the order on both sides of the total delay) are available. -/
def Usable [Field K] [LinearOrder K] (policy : DelayLine.Policy) (order : Nat) (fs : K) (M : K) (v : K) : Prop :=
  match policy with
  | .add => 0 ≤ v * fs ∧ v * fs + (order : K) ≤ M
  | .limit => v * fs + (order : K) / 2 ≤ M ∧ (order : K) ≤ M
  | .reject => (order : K) / 2 ≤ v * fs ∧ v * fs + (order : K) / 2 ≤ M

/-- All parameter values of a history, including the initial ones, satisfy `P`, and the vectors have the right size. -/
def AllValues (channels : Nat) (P : K → Prop) (initial : List K) (h : List (Option (List K))) : Prop :=
  (initial.length = channels ∧ ∀ v ∈ initial, P v) ∧ ∀ g, some g ∈ h → g.length = channels ∧ ∀ v ∈ g, P v

end Visr.DelayVector
