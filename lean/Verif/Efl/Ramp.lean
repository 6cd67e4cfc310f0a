import Mathlib.Algebra.Order.Field.Basic
import Mathlib.Data.Nat.Cast.Order.Basic
import Mathlib.Algebra.Order.Field.Rat

/-!
# Ramps and ramp scaling

Models `src/libefl/reference/vector_functions_impl.hpp`. The sample type (`float`, `double`) is modelled by an
arbitrary linearly ordered field: rounding, overflow, NaN and signed zeros are not modelled. Alignment checks are not
modelled; all callers pass buffers with the alignment they declare.
-/

namespace Visr.Efl

variable {K : Type*} [Field K]

/-- `vectorRamp` (`reference/vector_functions_impl.hpp:61-82`). `dest` is the content of the destination array before
the call, of which the first `n` elements are overwritten; the caller guarantees that `n` elements are accessible.
The single element case is modelled with both of its assignments (lines 70-74). -/
def vectorRamp (dest : List K) (n : Nat) (startVal endVal : K) (startInclusive endInclusive : Bool) : List K :=
  if n = 0 then dest
  else if n = 1 then
    let d := if startInclusive = endInclusive then dest.set 0 (2⁻¹ * (startVal + endVal)) else dest
    d.set 0 (if startInclusive then startVal else endVal)
  else
    let numSteps := n + 1 - (if startInclusive then 1 else 0) - (if endInclusive then 1 else 0)
    let step := (endVal - startVal) / (numSteps : K)
    (List.range n).map
        (fun i => startVal + ((((if startInclusive then 0 else 1) + i : Nat)) : K) * step) ++ dest.drop n

/-- `vectorFill` (`reference/vector_functions_impl.hpp:36-42`) applied to the elements `from, from+1, …, from+count-1`
of an array. -/
def vectorFillAt (dest : List K) (start count : Nat) (v : K) : List K :=
  dest.take start ++ List.replicate count v ++ dest.drop (start + count)

/-- `vectorRampScaling` (`reference/vector_functions_impl.hpp:363-397`): the gain applied to the `i`-th sample is
`baseGain + rampGain * ramp[i]`. `output` is the previous content of the output array, used when accumulating. -/
def vectorRampScaling (input ramp output : List K) (baseGain rampGain : K) (n : Nat) (accumulate : Bool) : List K :=
  if accumulate then
    (List.range n).map (fun i => output.getD i 0 + (baseGain + rampGain * ramp.getD i 0) * input.getD i 0)
  else
    (List.range n).map (fun i => (baseGain + rampGain * ramp.getD i 0) * input.getD i 0)

end Visr.Efl
