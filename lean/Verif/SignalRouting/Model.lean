import Verif.RoutingParameter.Model
import Mathlib.Algebra.Notation.Defs

/-!
# `rcl::SignalRouting`

Models `src/librcl/signal_routing.{hpp,cpp}`.
-/

namespace Visr.SignalRouting
open Visr
open Visr.RoutingParameter (Entry cInvalidIndex)

/-- The state of the component. `table` is the `std::set< std::tuple< out, in > >` (`signal_routing.hpp:122-131`) in
iteration order. `hasControl` tells whether the optional control port exists. -/
structure State where
  inputs : Nat
  outputs : Nat
  hasControl : Bool
  table : List (Nat × Nat)
  deriving DecidableEq, Repr

/-- Lexicographic order of the tuples. -/
def tupleLt (a b : Nat × Nat) : Bool := a.1 < b.1 || (a.1 == b.1 && a.2 < b.2)

/-- `std::set::insert`. -/
def insertTuple (e : Nat × Nat) : List (Nat × Nat) → List (Nat × Nat)
  | [] => [e]
  | x :: l => if tupleLt e x then e :: x :: l else if tupleLt x e then x :: insertTuple e l else x :: l

/-- `checkRoutingIndexRanges`, `signal_routing.cpp:128-142`: `true` if no exception is thrown. -/
def indexOk (s : State) (input output : Nat) : Bool :=
  !((input != cInvalidIndex) && (input ≥ s.inputs)) && !((output ≥ s.outputs) || (output == cInvalidIndex))

/-- `setup( inputWidth, outputWidth, controlPort )`, `signal_routing.cpp:27-36`. -/
def setup (inputs outputs : Nat) (controlPort : Bool) : State := ⟨inputs, outputs, controlPort, []⟩

/-- `setRouting( in, out )`, `signal_routing.cpp:115-119`. -/
def setRouting (s : State) (input output : Nat) : State × Outcome Unit :=
  if indexOk s input output then ({ s with table := insertTuple (output, input) s.table }, .ok ())
  else (s, .throw .invalidArgument)

/-- Insert the entries of a parameter one after the other, stopping at the first invalid one. -/
def insertAll (s : State) : List Entry → List (Nat × Nat) → List (Nat × Nat) × Outcome Unit
  | [], t => (t, .ok ())
  | e :: es, t => if indexOk s e.input e.output then insertAll s es (insertTuple (e.output, e.input) t)
    else (t, .throw .invalidArgument)

/-- `setup` with an initial routing, `signal_routing.cpp:38-50`. The flag `controlPort` is not passed on to the first
`setup` function. -/
def setupWith (inputs outputs : Nat) (initial : List Entry) (_controlPort : Bool) : State × Outcome Unit :=
  let s := setup inputs outputs false
  let r := insertAll s initial []
  ({ s with table := r.1 }, r.2)

/-- `setRouting( SignalRoutingParameter )`, `signal_routing.cpp:103-113`: the table is cleared first. -/
def setRoutings (s : State) (es : List Entry) : State × Outcome Unit :=
  let r := insertAll s es []
  ({ s with table := r.1 }, r.2)

/-- `removeRouting`, `signal_routing.cpp:121-126`. -/
def removeRouting (s : State) (input output : Nat) : State × Outcome Bool :=
  if indexOk s input output then
    ({ s with table := s.table.filter (· != (output, input)) }, .ok (s.table.contains (output, input)))
  else (s, .throw .invalidArgument)

/-- The update through the control port at the beginning of `process`, `signal_routing.cpp:57-81`: `new` is the content of
the control port if it is flagged as changed. The flag is reset in either case. -/
def controlUpdate (s : State) (new : Option (List Entry)) : State :=
  match s.hasControl, new with
  | true, some es =>
    match insertAll s es [] with
    | (t, .ok ()) => { s with table := t }
    | (_, _) => s
  | _, _ => s

/-- The mixing loop, `signal_routing.cpp:91-100`: `vectorAddInplace` for every entry. An input index outside the port is an
access outside the array of channel pointers. -/
def mix {α : Type u} [Add α] (s : State) (x : Nat → Nat → α) : List (Nat × Nat) → (Nat → Nat → α) → Outcome (Nat → Nat → α)
  | [], y => .ok y
  | (o, i) :: t, y =>
    if i < s.inputs ∧ o < s.outputs then mix s x t (fun o' k => if o' = o then y o' k + x i k else y o' k)
    else .ub

/-- `process`, `signal_routing.cpp:52-101`: `x i k` is sample `k` of input channel `i` in this block; returns the samples
of the output channels. -/
def process {α : Type u} [Add α] [Zero α] (s : State) (new : Option (List Entry)) (x : Nat → Nat → α) :
    State × Outcome (Nat → Nat → α) :=
  let s1 := controlUpdate s new
  (s1, mix s1 x s1.table (fun _ _ => 0))

/-- The operations of the component that may change the routing. -/
inductive Op where
  | set (input output : Nat)
  | setAll (es : List Entry)
  | remove (input output : Nat)
  | process (new : Option (List Entry))
  deriving DecidableEq, Repr

/-- State change of one operation (audio output of `process` left out). -/
def step (s : State) : Op → State × Unit
  | .set i o => ((setRouting s i o).1, ())
  | .setAll es => ((setRoutings s es).1, ())
  | .remove i o => ((removeRouting s i o).1, ())
  | .process new => (controlUpdate s new, ())

end Visr.SignalRouting
