import Verif.DelayLine.Model
import Verif.GainMatrix.Model

/-!
# `rcl::DelayMatrix`

Models `/repo/src/librcl/delay_matrix.cpp`. The sample type is modelled by a linearly ordered field with floor. Matrices
are `GainMatrix.Mat`: dimensions and element access.
-/

namespace Visr.DelayMatrix
open Visr Visr.DelayLine
open Visr.GainMatrix (Mat)

variable {K : Type*} [Field K] [LinearOrder K] [FloorRing K]

/-- Members for one of the two interpolated parameters: `mCurrentDelays`, `mNextDelays`, `mDelayInterpolationCounter`
or `mCurrentGains`, `mNextGains`, `mGainInterpolationCounter` (`delay_matrix.hpp`). -/
structure Trans (K : Type*) where
  current : Mat K
  next : Mat K
  counter : Nat

/-- State of the component after `setup()`. -/
structure State (K : Type*) where
  inputs : Nat
  outputs : Nat
  blocks : Nat
  delays : Trans K
  gains : Trans K
  line : DL K

/-- `setup()` (`delay_matrix.cpp:114-170`). `BasicMatrix::copy()` checks the dimensions (`basic_matrix.hpp:145-151`). -/
def setup (fs : K) (period inputs outputs steps : Nat) (maxSeconds : K) (method : String) (policy : Policy)
    (align : Nat) (initialDelays initialGains : Mat K) : Outcome (State K) :=
  if period = 0 then .ub
  else if steps % period ≠ 0 then .throw .invalidArgument
  else if steps / period < 1 then .throw .invalidArgument
  else if initialGains.rows ≠ outputs ∨ initialGains.cols ≠ inputs then .throw .invalidArgument
  else if initialDelays.rows ≠ outputs ∨ initialDelays.cols ≠ inputs then .throw .invalidArgument
  else match DelayLine.mk inputs fs period maxSeconds method policy align with
    | .ok line => .ok ⟨inputs, outputs, steps / period, ⟨initialDelays, initialDelays, 0⟩,
        ⟨initialGains, initialGains, 0⟩, line⟩
    | .throw e => .throw e
    | .ub => .ub

/-- The loop over the rows with `vectorCombinationInplace( ratio, next.row, current.row )`
(`delay_matrix.cpp:174-187, 273-282`): the result replaces `current`. -/
def combine (ratio : K) (next current : Mat K) : Mat K :=
  { current with at_ := fun o i => ratio * (current.at_ o i - next.at_ o i) + next.at_ o i }

/-- `setDelay()` (`delay_matrix.cpp:257-307`). -/
def setDelay (outputs inputs blocks : Nat) (t : Trans K) (new : Mat K) : Outcome (Trans K) :=
  if new.rows ≠ outputs ∨ new.cols ≠ inputs then .throw .invalidArgument
  else
    let current :=
      if t.counter < blocks then combine ((t.counter : K) / (blocks : K)) t.next t.current
      else t.next
    .ok ⟨current, new, 0⟩

/-- `setGain()` (`delay_matrix.cpp:309-357`). -/
def setGain (outputs inputs blocks : Nat) (t : Trans K) (new : Mat K) : Outcome (Trans K) :=
  if new.rows ≠ outputs ∨ new.cols ≠ inputs then .throw .invalidArgument
  else
    let current :=
      if t.counter < blocks then combine (1 - ((blocks - t.counter : Nat) : K) / (blocks : K)) t.next t.current
      else t.next
    .ok ⟨current, new, 0⟩

/-- Start value of a parameter for the current block (`delay_matrix.cpp:209-222, 236-239`). -/
def startValue (blocks : Nat) (t : Trans K) (o i : Nat) : K :=
  let ratio := (t.counter : K) / (blocks : K)
  (1 - ratio) * t.current.at_ o i + ratio * t.next.at_ o i

/-- End value of a parameter for the current block (`delay_matrix.cpp:209-222, 236-239`). -/
def endValue (blocks : Nat) (t : Trans K) (o i : Nat) : K :=
  let ratio := ((min (t.counter + 1) blocks : Nat) : K) / (blocks : K)
  (1 - ratio) * t.current.at_ o i + ratio * t.next.at_ o i

/-- Advance a counter (`delay_matrix.cpp:247-248`). -/
def advance (blocks : Nat) (t : Trans K) : Trans K := { t with counter := min blocks (t.counter + 1) }

/-- Input of one `process()` call: contents of the changed control inputs and the audio input. -/
structure Input (K : Type*) where
  gain : Option (Mat K)
  delay : Option (Mat K)
  audio : Nat → Nat → K

/-- Apply a changed control input (`delay_matrix.cpp:191-200`). -/
def control (set : Trans K → Mat K → Outcome (Trans K)) (t : Trans K) : Option (Mat K) → Outcome (Trans K)
  | none => .ok t
  | some v => set t v

/-- The loop over the inputs of one output channel (`delay_matrix.cpp:233-245`): the delayed signals are added to the
output. -/
def mix (f : Nat → Outcome (List K)) : List Nat → List K → Outcome (List K)
  | [], acc => .ok acc
  | i :: is, acc =>
    match f i with
    | .ok y => mix f is (List.zipWith (· + ·) acc y)
    | .throw e => .throw e
    | .ub => .ub

/-- `process()` (`delay_matrix.cpp:189-249`). If the interpolation throws, the control inputs and the new samples have
been consumed but the counters are not advanced. -/
def process (epsilon : K) (s : State K) (x : Input K) : State K × Outcome (List (List K)) :=
  match control (setGain s.outputs s.inputs s.blocks) s.gains x.gain with
  | .throw e => (s, .throw e)
  | .ub => (s, .ub)
  | .ok g =>
    match control (setDelay s.outputs s.inputs s.blocks) s.delays x.delay with
    | .throw e => ({ s with gains := g }, .throw e)
    | .ub => ({ s with gains := g }, .ub)
    | .ok d =>
      match DelayLine.write s.line x.audio s.inputs with
      | .throw e => ({ s with gains := g, delays := d }, .throw e)
      | .ub => ({ s with gains := g, delays := d }, .ub)
      | .ok line =>
        match collect (fun o => mix (fun i => DelayLine.interpolate epsilon line i line.blockLength
            (startValue s.blocks d o i) (endValue s.blocks d o i) (startValue s.blocks g o i) (endValue s.blocks g o i))
            (List.range s.inputs) (List.replicate line.blockLength 0)) (List.range s.outputs) with
        | .ok out => ({ s with gains := advance s.blocks g, delays := advance s.blocks d, line := line }, .ok out)
        | .throw e => ({ s with gains := g, delays := d, line := line }, .throw e)
        | .ub => ({ s with gains := g, delays := d, line := line }, .ub)

end Visr.DelayMatrix
