import Verif.GainFader.Model
import Verif.Run

/-!
# `rbbl::GainMatrix` and `rcl::GainMatrix`

Models `src/librbbl/gain_matrix.{hpp,cpp}` and `src/librcl/gain_matrix.cpp`. Samples and gains are elements of a
linearly ordered field (see `Verif.Efl.Ramp`); `epsilon` is the machine epsilon used by the code.
-/

namespace Visr.GainMatrix
open Visr Visr.GainFader

variable {K : Type*} [Field K]

/-- The content of an `efl::BasicMatrix`: dimensions and element access. The storage layout is modelled separately. -/
structure Mat (K : Type*) where
  rows : Nat
  cols : Nat
  at_ : Nat → Nat → K

/-- Members of `rbbl::GainMatrix` (`librbbl/gain_matrix.hpp:118-150`). -/
structure State (K : Type*) where
  prev : Mat K
  next : Mat K
  blockSize : Nat
  counter : Nat
  fader : Fader K

/-- Constructor with an initial matrix (`librbbl/gain_matrix.cpp:33-48`). The fader is constructed before the size
check. -/
def mk (junk : K) (inputs outputs blockLength steps : Nat) (initial : Mat K) : Outcome (State K) :=
  match GainFader.mk junk blockLength steps with
  | .ok f =>
    if initial.rows ≠ outputs ∨ initial.cols ≠ inputs then .throw .invalidArgument
    else .ok { prev := initial, next := initial, blockSize := blockLength, counter := 0, fader := f }
  | .throw e => .throw e
  | .ub => .ub

/-- The loop over the inputs `1 … numInputs-1` for one output (`librbbl/gain_matrix.cpp:111-114`). -/
def accumulate (s : State K) (input : List (List K)) (o : Nat) : List Nat → List K → List K
  | [], acc => acc
  | i :: is, acc =>
    accumulate s input o is
      (GainFader.scaleAndAccumulate s.fader (input.getD i []) acc (s.prev.at_ o i) (s.next.at_ o i) s.counter)

/-- `processAudio()` (`librbbl/gain_matrix.cpp:88-116`). -/
def processAudio (s : State K) (input : List (List K)) : List (List K) :=
  let numInputs := s.prev.cols
  let numOutputs := s.prev.rows
  if numInputs = 0 then (List.range numOutputs).map (fun _ => List.replicate s.blockSize 0)
  else (List.range numOutputs).map (fun o =>
    accumulate s input o (List.range' 1 (numInputs - 1))
      (GainFader.scale s.fader (input.getD 0 []) (s.prev.at_ o 0) (s.next.at_ o 0) s.counter))

/-- `process( input, output )` (`librbbl/gain_matrix.cpp:53-62`). -/
def process (s : State K) (input : List (List K)) : State K × List (List K) :=
  ({ s with counter := if s.counter < s.fader.interpolationPeriods then s.counter + 1 else s.counter },
   processAudio s input)

variable [LinearOrder K]

/-- `setGainsInternal()` (`librbbl/gain_matrix.cpp:118-158`). `swap` followed by the overwriting `copy` leaves the
old target as the new start. -/
def setGainsInternal (epsilon : K) (s : State K) (new : Mat K) : State K :=
  let prev' : Mat K :=
    if s.fader.interpolationPeriods ≤ s.counter then s.next
    else
      let ratio : K := min 1 (((s.counter * s.blockSize : Nat) : K) / ((s.fader.interpolationSamples : Nat) : K))
      { s.prev with at_ := fun o i =>
          let newScale := ratio * (s.next.at_ o i - s.prev.at_ o i)
          if epsilon ≤ |newScale| then s.prev.at_ o i + newScale else s.next.at_ o i }
  { s with prev := prev', next := new, counter := 0 }

/-- `setNewGains()` (`librbbl/gain_matrix.cpp:77-86`). -/
def setNewGains (epsilon : K) (s : State K) (new : Mat K) : Outcome (State K) :=
  if new.rows ≠ s.prev.rows ∨ new.cols ≠ s.prev.cols then .throw .invalidArgument
  else .ok (setGainsInternal epsilon s new)

/-- Calls of the public interface. -/
inductive Op (K : Type*) where
  | process (input : List (List K))
  | processNew (input : List (List K)) (new : Mat K)
  | setNewGains (new : Mat K)

/-- One call (`librbbl/gain_matrix.cpp:53-86`). Only the `process` calls return a signal. -/
def step (epsilon : K) (s : State K) : Op K → State K × Outcome (List (List K))
  | .process input => let r := process s input; (r.1, .ok r.2)
  | .processNew input new =>
    match setNewGains epsilon s new with
    | .ok s' => let r := process s' input; (r.1, .ok r.2)
    | .throw e => (s, .throw e)
    | .ub => (s, .ub)
  | .setNewGains new =>
    match setNewGains epsilon s new with
    | .ok s' => (s', .ok [])
    | .throw e => (s, .throw e)
    | .ub => (s, .ub)

/-- `rcl::GainMatrix::process()` (`librcl/gain_matrix.cpp:66-96`). `gain` is the content of the control input if it
exists; with the shared data protocol it is passed on in *every* call. -/
def rclProcess (epsilon : K) (s : State K) (i : Option (Mat K) × List (List K)) : State K × Outcome (List (List K)) :=
  let pre : Outcome (State K) := match i.1 with
    | none => .ok s
    | some g => setNewGains epsilon s g
  match pre with
  | .ok s' =>
    if s'.prev.rows = 0 then (s', .ok [])
    else if s'.prev.cols = 0 then (s', .ok ((List.range s'.prev.rows).map (fun _ => List.replicate s'.blockSize 0)))
    else let r := process s' i.2; (r.1, .ok r.2)
  | .throw e => (s, .throw e)
  | .ub => (s, .ub)

end Visr.GainMatrix
