import Verif.DelayLine.Model

/-!
# `rcl::DelayVector`

Models `src/librcl/delay_vector.{hpp,cpp}`. The sample type is modelled by a linearly ordered field with floor.
-/

namespace Visr.DelayVector
open Visr Visr.DelayLine

variable {K : Type*} [Field K] [LinearOrder K] [FloorRing K]

/-- Members for one of the two interpolated parameters: `mCurrentDelays`, `mNextDelays`, `mDelayInterpolationCounter`
or `mCurrentGains`, `mNextGains`, `mGainInterpolationCounter` (`delay_vector.hpp`). -/
structure Trans (K : Type*) where
  current : List K
  next : List K
  counter : Nat

/-- The state of the component after `setup()`. -/
structure State (K : Type*) where
  channels : Nat
  blocks : Nat
  delays : Trans K
  gains : Trans K
  line : DL K

/-- `setup()` (`delay_vector.cpp:53-114`). The initial vectors are copied without a size check. -/
def setup (fs : K) (period channels steps : Nat) (maxSeconds : K) (method : String) (policy : Policy) (align : Nat)
    (initialDelays initialGains : List K) : Outcome (State K) :=
  if period = 0 then .ub
  else if steps % period ≠ 0 then .throw .invalidArgument
  else if steps / period < 1 then .throw .invalidArgument
  else match DelayLine.mk channels fs period maxSeconds method policy align with
    | .ok line =>
      if initialDelays.length < channels ∨ initialGains.length < channels then .ub
      else .ok { channels := channels, blocks := steps / period,
                 delays := ⟨initialDelays.take channels, initialDelays.take channels, 0⟩,
                 gains := ⟨initialGains.take channels, initialGains.take channels, 0⟩, line := line }
    | .throw e => .throw e
    | .ub => .ub

/-- `vectorCombinationInplace( ratio, op1, op2result )` (`delay_vector.cpp:136-146`): the result replaces the second
operand. -/
def vectorCombinationInplace (ratio : K) (op1 op2 : List K) : List K :=
  List.zipWith (fun val1 val2 => ratio * (val2 - val1) + val1) op1 op2

/-- `setDelay()` (`delay_vector.cpp:201-235`). -/
def setDelay (channels blocks : Nat) (t : Trans K) (new : List K) : Outcome (Trans K) :=
  if new.length ≠ channels then .throw .invalidArgument
  else
    let current :=
      if t.counter < blocks then vectorCombinationInplace ((t.counter : K) / (blocks : K)) t.next t.current
      else t.next
    .ok ⟨current, new, 0⟩

/-- `setGain()` (`delay_vector.cpp:237-271`). -/
def setGain (channels blocks : Nat) (t : Trans K) (new : List K) : Outcome (Trans K) :=
  if new.length ≠ channels then .throw .invalidArgument
  else
    let current :=
      if t.counter < blocks then
        vectorCombinationInplace (1 - ((blocks - t.counter : Nat) : K) / (blocks : K)) t.next t.current
      else t.next
    .ok ⟨current, new, 0⟩

/-- The start and end value of a parameter for the current block (`delay_vector.cpp:168-188`). -/
def startValue (blocks : Nat) (t : Trans K) (ch : Nat) : K :=
  let ratio := (t.counter : K) / (blocks : K)
  (1 - ratio) * t.current.getD ch 0 + ratio * t.next.getD ch 0

/-- See `startValue`. -/
def endValue (blocks : Nat) (t : Trans K) (ch : Nat) : K :=
  let ratio := ((min (t.counter + 1) blocks : Nat) : K) / (blocks : K)
  (1 - ratio) * t.current.getD ch 0 + ratio * t.next.getD ch 0

/-- Advance a counter (`delay_vector.cpp:190-191`). -/
def advance (blocks : Nat) (t : Trans K) : Trans K := { t with counter := min blocks (t.counter + 1) }

/-- Input of one `process()` call: the contents of the changed control inputs and the audio input. -/
structure Input (K : Type*) where
  gain : Option (List K)
  delay : Option (List K)
  audio : Nat → Nat → K

/-- Apply a changed control input. -/
def control (set : Trans K → List K → Outcome (Trans K)) (t : Trans K) : Option (List K) → Outcome (Trans K)
  | none => .ok t
  | some v => set t v

/-- `process()` (`delay_vector.cpp:150-192`). If the interpolation throws, the control inputs and the new samples have
been consumed but the counters are not advanced. -/
def process (epsilon : K) (s : State K) (i : Input K) : State K × Outcome (List (List K)) :=
  match control (setGain s.channels s.blocks) s.gains i.gain with
  | .throw e => (s, .throw e)
  | .ub => (s, .ub)
  | .ok g =>
    match control (setDelay s.channels s.blocks) s.delays i.delay with
    | .throw e => ({ s with gains := g }, .throw e)
    | .ub => ({ s with gains := g }, .ub)
    | .ok d =>
      match DelayLine.write s.line i.audio s.channels with
      | .throw e => ({ s with gains := g, delays := d }, .throw e)
      | .ub => ({ s with gains := g, delays := d }, .ub)
      | .ok line =>
        match collect (fun ch => DelayLine.interpolate epsilon line ch line.blockLength
            (startValue s.blocks d ch) (endValue s.blocks d ch) (startValue s.blocks g ch) (endValue s.blocks g ch))
            (List.range s.channels) with
        | .ok out => ({ s with gains := advance s.blocks g, delays := advance s.blocks d, line := line }, .ok out)
        | .throw e => ({ s with gains := g, delays := d, line := line }, .throw e)
        | .ub => ({ s with gains := g, delays := d, line := line }, .ub)

end Visr.DelayVector
