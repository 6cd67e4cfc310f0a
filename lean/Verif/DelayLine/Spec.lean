import Verif.DelayLine.Model
import Verif.CircularBuffer.Spec
import Mathlib.LinearAlgebra.Lagrange

/-!
# Specification of the delay line (C16, C46)
-/

namespace Visr.DelayLine
open Visr Visr.CircularBuffer Polynomial

variable {K : Type*} [Field K] [LinearOrder K] [FloorRing K]

/-- Value at sample `i` of `n` of a linear transition that starts from `a` before the first sample and reaches `b` at the
last one. -/
def ramp (a b : K) (n i : Nat) : K := a + ((i : K) + 1) / (n : K) * (b - a)

/-- Total delay in samples for a nominal delay (also in samples) according to the documented policies: with `Add` the
method delay `order / 2` is added, with `Limit` it is compensated as far as possible, with `Reject` always. -/
def totalDelay (policy : Policy) (order : Nat) (nominal : K) : K :=
  match policy with
  | .add => nominal + (order : K) / 2
  | .limit => max nominal ((order : K) / 2)
  | .reject => nominal

/-- The documented conditions for accepting a nominal delay (in samples). -/
def accepted (policy : Policy) (order : Nat) (nominal maxDelay : K) : Prop :=
  nominal ≤ maxDelay ∧ match policy with
    | .add => 0 ≤ nominal
    | .limit => True
    | .reject => (order : K) / 2 ≤ nominal

/-- Fractional delay of a signal: `x d` is the sample `d` sample periods ago. The value at the total delay `D` of the
polynomial of degree at most `order` through the `order + 1` samples with the delays `r, …, r + order`, where `r` is
the integer nearest to `D - order / 2`. -/
noncomputable def fractional (x : Nat → K) (order : Nat) (D : K) : K :=
  let r : Nat := ⌊D - (order : K) / 2 + 1 / 2⌋.toNat
  (Lagrange.interpolate (Finset.range (order + 1)) (fun j => ((r + j : Nat) : K)) (fun j => x (r + j))).eval D

end Visr.DelayLine
