import Verif.GainFader.Model
import Verif.Run

/-!
# `rcl::GainVector`

Models `src/librcl/gain_vector.{hpp,cpp}`. Samples and gains are elements of a field (see `Verif.Efl.Ramp`).
-/

namespace Visr.GainVector
open Visr Visr.GainFader

variable {K : Type*} [Field K]

/-- The members of `GainVector` that change or matter after `setup()` (`gain_vector.hpp:132-159`). -/
structure State (K : Type*) where
  channels : Nat
  current : List K
  next : List K
  periods : Nat
  counter : Nat
  fader : Fader K

/-- `setup()` with a vector of initial gains (`gain_vector.cpp:45-76`). The gains are copied with
`vectorCopy(initialGainsLinear.data(), …, numberOfChannels)` without a size check; a shorter vector is read out of
bounds. -/
def setup (junk : K) (period channels steps : Nat) (initial : List K) : Outcome (State K) :=
  if initial.length < channels then .ub
  else if period = 0 then .ub
  else
    match GainFader.mk junk period steps with
    | .ok f => .ok { channels := channels, current := initial.take channels, next := initial.take channels,
                     periods := (steps + period - 1) / period, counter := 0, fader := f }
    | .throw e => .throw e
    | .ub => .ub

/-- `setGain()` (`gain_vector.cpp:99-117`). -/
def setGain (s : State K) (new : List K) : Outcome (State K) :=
  if new.length ≠ s.channels then .throw .invalidArgument
  else .ok { s with current := s.next, next := new, counter := 0 }

/-- The audio part of `process()` (`gain_vector.cpp:86-96`). `input` holds the blocks of all channels. -/
def processAudio (s : State K) (input : List (List K)) : State K × List (List K) :=
  ({ s with counter := min (s.counter + 1) s.periods },
   (List.range s.channels).map
    (fun ch => GainFader.scale s.fader (input.getD ch []) (s.current.getD ch 0) (s.next.getD ch 0) s.counter))

/-- `process()` (`gain_vector.cpp:78-97`). `gain` is the new value at the control input if it exists and has changed.
An exception leaves the state unchanged. -/
def process (s : State K) (i : Option (List K) × List (List K)) : State K × Outcome (List (List K)) :=
  match i.1 with
  | none => let r := processAudio s i.2; (r.1, .ok r.2)
  | some g =>
    match setGain s g with
    | .ok s' => let r := processAudio s' i.2; (r.1, .ok r.2)
    | .throw e => (s, .throw e)
    | .ub => (s, .ub)

end Visr.GainVector
