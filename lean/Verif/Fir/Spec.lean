import Verif.Fir.Model
import Mathlib.Algebra.BigOperators.Group.Finset.Basic

/-!
# Specification of C87: FIR filtering with spread taps
-/

namespace Visr.Fir
open Visr

variable {K : Type} [CommRing K]

/-- The input signal of a history: the blocks of all `process()` calls one after the other. -/
def signal : List (Op K) → List K
  | [] => []
  | .process input _ :: os => (List.range 64).map input ++ signal os
  | _ :: os => signal os

/-- Sample at time `t`; the signal is zero before its beginning (and after its end). -/
def sampleAt (x : List K) (t : Int) : K := if 0 ≤ t then x.getD t.toNat 0 else 0

/-- The filter with `n` coefficients `b`, whose taps are `ratio` samples apart, applied to the signal `x`, at time `t`. -/
def filtered (b : Nat → K) (n : Nat) (ratio : Int) (x : List K) (t : Int) : K :=
  ∑ j ∈ Finset.range n, b j * sampleAt x (t - j * ratio)

/-- A coefficient of a tristate filter: zero, or one with a sign. -/
def tristate (d : Bool × Bool) : K := if d.1 then (if d.2 then 1 else -1) else 0

end Visr.Fir
