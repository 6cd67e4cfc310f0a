import Verif.CircularBuffer.Model
import Verif.Efl.Ramp
import Verif.Lagrange.Model
import Verif.Run
import Mathlib.Algebra.Order.Floor.Defs
import Mathlib.Algebra.Order.Floor.Ring

/-!
# `rbbl::MultichannelDelayLine` and `rbbl::LagrangeInterpolator`

Models `src/librbbl/multichannel_delay_line.{hpp,cpp}`, `src/librbbl/lagrange_interpolator.{hpp,cpp}` and
`src/librbbl/fractional_delay_factory.cpp`. The sample type is modelled by a linearly ordered field with floor.
-/

namespace Visr.DelayLine
open Visr Visr.Efl Visr.CircularBuffer

variable {K : Type*} [Field K] [LinearOrder K] [FloorRing K]

/-- `MethodDelayPolicy` (`multichannel_delay_line.hpp:36-42`). -/
inductive Policy where
  | add
  | limit
  | reject
  deriving DecidableEq, Repr

/-- Members of `MultichannelDelayLine` (`multichannel_delay_line.hpp:146-188`). `order` is the template argument of the
`LagrangeInterpolator`, `maxNumSamples` its buffer size. -/
structure DL (K : Type*) where
  blockLength : Nat
  fs : K
  maxDelay : K
  policy : Policy
  ring : CB K
  order : Nat

/-- The registered algorithms (`fractional_delay_factory.cpp:21-34`). -/
def methodOrder : String → Option Nat
  | "nearestSample" => some 0
  | "lagrangeOrder0" => some 0
  | "lagrangeOrder1" => some 1
  | "lagrangeOrder2" => some 2
  | "lagrangeOrder3" => some 3
  | "lagrangeOrder4" => some 4
  | "lagrangeOrder5" => some 5
  | "lagrangeOrder6" => some 6
  | "lagrangeOrder7" => some 7
  | "lagrangeOrder8" => some 8
  | "lagrangeOrder9" => some 9
  | _ => none

/-- The constructed object for an interpolator of the given order (`multichannel_delay_line.cpp:30-36`). -/
def build (channels : Nat) (fs : K) (blockLength : Nat) (maxDelaySeconds : K) (order : Nat) (policy : Policy)
    (align : Nat) : DL K :=
  { blockLength := blockLength, fs := fs, maxDelay := (⌈maxDelaySeconds * fs⌉ : Int), policy := policy,
    ring := CB.init channels ((⌈maxDelaySeconds * fs⌉).toNat + blockLength) align, order := order }

/-- Constructor (`multichannel_delay_line.cpp:22-42`). Converting a negative maximum delay to `std::size_t` is
undefined. -/
def mk (channels : Nat) (fs : K) (blockLength : Nat) (maxDelaySeconds : K) (method : String) (policy : Policy)
    (align : Nat) : Outcome (DL K) :=
  if ⌈maxDelaySeconds * fs⌉ < 0 then .ub
  else match methodOrder method with
    | none => .throw .invalidArgument
    | some order => .ok (build channels fs blockLength maxDelaySeconds order policy align)

/-- `write()` (`multichannel_delay_line.cpp:71-82`). -/
def write (d : DL K) (data : Nat → Nat → K) (numChannels : Nat) : Outcome (DL K) :=
  if numChannels ≠ d.ring.channels then .throw .invalidArgument
  else match d.ring.write data numChannels d.blockLength with
    | .ok r => .ok { d with ring := r }
    | .throw e => .throw e
    | .ub => .ub

/-- `cMethodDelay` (`lagrange_interpolator.hpp:61`). -/
def methodDelay (order : Nat) : K := 2⁻¹ * (order : K)

/-- `adjustDelay()` (`multichannel_delay_line.cpp:103-130`). -/
def adjustDelay (epsilon : K) (d : DL K) (rawDelaySeconds : K) : Outcome K :=
  let raw := rawDelaySeconds * d.fs
  if raw > d.maxDelay then .throw .outOfRange
  else match d.policy with
    | .add => if raw < -epsilon then .throw .outOfRange else .ok raw
    | .limit => .ok (max (raw - methodDelay d.order) 0)
    | .reject => if raw < methodDelay d.order then .throw .outOfRange else .ok (raw - methodDelay d.order)

/-- Dereferencing `getReadPointer( ch, delay ) + off` (`circular_buffer.hpp:157-163`); undefined outside the row. -/
def deref (b : CB K) (ch delay : Nat) (off : Int) : Outcome K :=
  let pos : Int := (b.alloc : Int) + b.w - delay + off
  if ch ≥ b.channels ∨ pos < 0 ∨ pos ≥ 2 * b.alloc then .ub else .ok (b.row ch pos.toNat)

/-- Rounding to the nearest integer (`lagrange_interpolator.cpp:74-78`); the casts truncate towards zero. -/
def roundOffset (delay : K) : Int := if delay > 0 then ⌊delay + 2⁻¹⌋ else ⌈delay - 2⁻¹⌉

/-- `std::inner_product` of the coefficients with the samples from `base + off` on
(`lagrange_interpolator.cpp:83-85`). -/
def innerProduct (rd : Int → Outcome K) : List K → Int → K → Outcome K
  | [], _, acc => .ok acc
  | c :: cs, off, acc =>
    match rd off with
    | .ok x => innerProduct rd cs (off + 1) (acc + c * x)
    | .throw e => .throw e
    | .ub => .ub

/-- Evaluate a loop body for the indices in the list, stopping at the first failure. -/
def collect {α : Type*} (f : Nat → Outcome α) : List Nat → Outcome (List α)
  | [] => .ok []
  | i :: is =>
    match f i with
    | .ok x => match collect f is with
      | .ok xs => .ok (x :: xs)
      | .throw e => .throw e
      | .ub => .ub
    | .throw e => .throw e
    | .ub => .ub

/-- `LagrangeInterpolator::interpolate()` (`lagrange_interpolator.cpp:32-87`). `rd off` dereferences
`basePointer + off`. -/
def lagrangeInterpolate (order maxNumSamples : Nat) (rd : Int → Outcome K) (n : Nat)
    (startDelay endDelay startGain endGain : K) : Outcome (List K) :=
  if n > maxNumSamples then .throw .invalidArgument
  else
    let gains := vectorRamp (List.replicate maxNumSamples (0 : K)) n startGain endGain false true
    let adjustedStart : K := -((n + order : Nat) : K) - startDelay
    let adjustedEnd : K := -(order : K) - endDelay
    let delays := vectorRamp (List.replicate maxNumSamples (0 : K)) n adjustedStart adjustedEnd false true
    collect (fun i =>
      let delay := delays.getD i 0
      let base := roundOffset delay
      let mu := delay - (base : K)
      match innerProduct rd (Lagrange.calculateCoefficients order true mu).reverse base 0 with
      | .ok y => .ok (gains.getD i 0 * y)
      | .throw e => .throw e
      | .ub => .ub) (List.range n)

/-- `interpolate()` (`multichannel_delay_line.cpp:84-101`). -/
def interpolate (epsilon : K) (d : DL K) (ch n : Nat) (startDelay endDelay startGain endGain : K) :
    Outcome (List K) :=
  if ch ≥ d.ring.channels then .throw .invalidArgument
  else match adjustDelay epsilon d startDelay, adjustDelay epsilon d endDelay with
    | .ok s, .ok e => lagrangeInterpolate d.order d.blockLength (deref d.ring ch 1) n s e startGain endGain
    | .ok _, x => (match x with | .throw e => .throw e | _ => .ub)
    | .throw e, _ => .throw e
    | .ub, _ => .ub

/-- `methodDelaySamples()` (`multichannel_delay_line.cpp:65-69`). -/
def methodDelaySamples (d : DL K) : K := d.maxDelay

end Visr.DelayLine
