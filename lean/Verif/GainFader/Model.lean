import Verif.Efl.Ramp
import Verif.Outcome

/-!
# `rbbl::GainFader`

Models `src/librbbl/gain_fader.{hpp,cpp}`. Samples are elements of a linearly ordered field (see `Verif.Efl.Ramp`).
-/

namespace Visr.GainFader
open Visr Visr.Efl

variable {K : Type*} [Field K]

/-- Members of `GainFader` (`gain_fader.hpp:104-131`). The unused `mTempBuffer` is dropped. -/
structure Fader (K : Type*) where
  blockSize : Nat
  interpolationSamples : Nat
  interpolationPeriods : Nat
  ramp : List K

/-- `setupRamp` (`gain_fader.cpp:73-96`) on a fresh ramp of the given size. The ramp memory of a new `AlignedArray` is
uninitialised; `junk` stands for its content. -/
def setupRamp (junk : K) (size periods steps : Nat) : List K :=
  let fresh := List.replicate size junk
  let ramped := if periods > 0 then vectorRamp fresh steps 0 1 false true else fresh
  vectorFillAt ramped steps (size - steps) 1

/-- Constructor (`gain_fader.cpp:14-26`). A block size of zero divides by zero. -/
def mk (junk : K) (blockSize steps : Nat) : Outcome (Fader K) :=
  if blockSize = 0 then .ub
  else
    let periods := (steps + blockSize - 1) / blockSize
    .ok { blockSize := blockSize, interpolationSamples := steps, interpolationPeriods := periods,
          ramp := setupRamp junk ((periods + 1) * blockSize) periods steps }

/-- `scale` (`gain_fader.cpp:43-56`). The result is the content of the output block. -/
def scale (f : Fader K) (input : List K) (startGain endGain : K) (blockIndex : Nat) : List K :=
  let b := min blockIndex f.interpolationPeriods
  vectorRampScaling input (f.ramp.drop (b * f.blockSize)) [] startGain (endGain - startGain) f.blockSize false

/-- `scaleAndAccumulate` (`gain_fader.cpp:58-71`). -/
def scaleAndAccumulate (f : Fader K) (input output : List K) (startGain endGain : K) (blockIndex : Nat) : List K :=
  let b := min blockIndex f.interpolationPeriods
  vectorRampScaling input (f.ramp.drop (b * f.blockSize)) output startGain (endGain - startGain) f.blockSize true

end Visr.GainFader
