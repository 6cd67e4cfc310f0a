import Verif.GainFader.Model
import Verif.Run

/-!
# `rcl::SparseGainMatrix`, `rcl::Add`, `rcl::NullSource`

Models `/repo/src/librcl/sparse_gain_matrix.cpp`, `/repo/src/librcl/add.cpp` and `/repo/src/librcl/null_source.cpp`.
Samples and gains are elements of a field (see `Verif.Efl.Ramp`).
-/

namespace Visr.SparseGain
open Visr

variable {K : Type*} [Field K]

/-- `SparseGainRouting` (`sparse_gain_routing.hpp:23-77`). -/
structure Routing (K : Type*) where
  entry : Nat
  row : Nat
  col : Nat
  gain : K

/-- Members (`sparse_gain_matrix.hpp:86-112`) and the contents of the two double-buffered control inputs while they are
marked as changed. A `SparseGainRoutingList` is modelled by the list of its elements in iteration order. -/
structure State (K : Type*) where
  inputs : Nat
  outputs : Nat
  points : Nat
  blockSize : Nat
  fader : GainFader.Fader K
  prev : List K
  next : List K
  routings : List (Routing K)
  ramp : Nat
  newRoutings : Option (List (Routing K))
  newGains : Option (List K)

/-- The loop of `setRoutings( newRoutings )` (`sparse_gain_matrix.cpp:97-113`) over `mNextGains`. `status( Error, … )`
throws (`component_implementation.cpp:73-82`). Returns `mNextGains` as it is left and whether the end is reached. -/
def setRoutings (inputs outputs points : Nat) : List (Routing K) → List K → List K × Bool
  | [], next => (next, true)
  | r :: rs, next =>
    if r.entry ≥ points then (next, false)
    else if r.row ≥ outputs then (next, false)
    else if r.col ≥ inputs then (next, false)
    else setRoutings inputs outputs points rs (next.set r.entry r.gain)

/-- Constructor (`sparse_gain_matrix.cpp:16-53`). -/
def mk (junk : K) (inputs outputs blockSize steps points : Nat) (initial : List (Routing K)) : Outcome (State K) :=
  match GainFader.mk junk blockSize steps with
  | .ok f =>
    let r := setRoutings inputs outputs points initial (List.replicate points 0)
    if r.2 then .ok ⟨inputs, outputs, points, blockSize, f, List.replicate points 0, r.1, initial, 0, none, none⟩
    else .throw .runtimeError
  | .throw e => .throw e
  | .ub => .ub

/-- A changed routing list (`sparse_gain_matrix.cpp:57-63`). If `setRoutings` throws, the gain vectors are already
swapped and the input remains marked as changed. -/
def applyRoutings (s : State K) : State K × Outcome Unit :=
  match s.newRoutings with
  | none => (s, .ok ())
  | some rs =>
    let r := setRoutings s.inputs s.outputs s.points rs s.prev
    if r.2 then ({ s with prev := s.next, next := r.1, routings := rs, ramp := 0, newRoutings := none }, .ok ())
    else ({ s with prev := s.next, next := r.1 }, .throw .runtimeError)

/-- A changed gain vector (`sparse_gain_matrix.cpp:73-80`): swap, then overwrite `mNextGains`. -/
def applyGains (s : State K) : State K :=
  match s.newGains with
  | none => s
  | some g => { s with prev := s.next, next := g, ramp := 0, newGains := none }

/-- The loop over the routings (`sparse_gain_matrix.cpp:88-92`). Gain vectors that are too short are read out of
bounds. -/
def mixLoop (s : State K) (audio : List (List K)) : List (Routing K) → List (List K) → Outcome (List (List K))
  | [], out => .ok out
  | r :: rs, out =>
    if r.entry ≥ s.prev.length ∨ r.entry ≥ s.next.length then .ub
    else mixLoop s audio rs (out.set r.row (GainFader.scaleAndAccumulate s.fader (audio.getD r.col [])
      (out.getD r.row []) (s.prev.getD r.entry 0) (s.next.getD r.entry 0) s.ramp))

/-- What happens to the component: new contents of the control inputs `routingListInput`, `gainInput` and
`routingPointInput`, and calls of `process()`. -/
inductive Op (K : Type*) where
  | routings (rs : List (Routing K))
  | gains (g : List K)
  | point (r : Routing K)
  | process (audio : List (List K))

/-- One event; `process()` is `sparse_gain_matrix.cpp:55-94`. Messages of the routing point input are removed and
ignored (`:64-72`). -/
def step (s : State K) : Op K → State K × Outcome (List (List K))
  | .routings rs => ({ s with newRoutings := some rs }, .ok [])
  | .gains g => ({ s with newGains := some g }, .ok [])
  | .point _ => (s, .ok [])
  | .process audio =>
    match applyRoutings s with
    | (s1, .ok _) =>
      let s2 := applyGains s1
      match mixLoop s2 audio s2.routings (List.replicate s2.outputs (List.replicate s2.blockSize 0)) with
      | .ok out => ({ s2 with ramp := min (s2.ramp + 1) s2.fader.interpolationPeriods }, .ok out)
      | .throw e => (s2, .throw e)
      | .ub => (s2, .ub)
    | (s1, .throw e) => (s1, .throw e)
    | (s1, .ub) => (s1, .ub)

/-! ### Adding signals -/

/-- Add a further input to all output channels (`add.cpp:77-87`). -/
def addInput (out input : List (List K)) : List (List K) :=
  List.zipWith (List.zipWith (· + ·)) out input

/-- `Add::process()` (`add.cpp:46-89`) for inputs of `width` channels of `period` samples. -/
def add (width period : Nat) (inputs : List (List (List K))) : List (List K) :=
  match inputs with
  | [] => List.replicate width (List.replicate period 0)
  | [a] => a
  | a :: b :: rest => rest.foldl addInput (addInput a b)

/-- `NullSource::process()` (`null_source.cpp:26-37`). -/
def nullSource (width period : Nat) : List (List K) := List.replicate width (List.replicate period 0)

end Visr.SparseGain
