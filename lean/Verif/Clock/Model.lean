import Mathlib.Algebra.Order.Field.Rat
import Verif.Outcome

/-!
# The clock of components

Model of `libvisr/time.cpp`, `libvisr/impl/time_implementation.cpp`, of the constructor of components
(`libvisr/impl/component_implementation.cpp:27-46`) and of the places where signal flows set the clock
(`librrl/audio_signal_flow.cpp:62-115, 220-262`).

Simplifications: `std::size_t` has 64 bits. The type `double` of the rendering time is ℚ, so that rounding is not modelled.
Components are numbered in the order of their construction and are not destroyed. Whether a signal flow is accepted, which
components it executes and which of them throws is given from outside (see the areas Wiring, ParamFlow, Schedule and Execute).
-/

namespace Visr.Clock
open Visr

/-- `SignalFlowContext` (`libvisr/signal_flow_context.hpp:17-66`). -/
structure Context where
  period : Nat
  samplingFrequency : Nat
  deriving DecidableEq, Repr

/-- `TimeImplementation` (`time_implementation.hpp:26-61`). The constructor does not initialise `mBlockCounter`
(`time_implementation.cpp:12-19`), `none` is this indeterminate value. -/
structure Counter where
  context : Context
  blocks : Option Nat
  deriving DecidableEq, Repr

/-- The objects of a program: the counters, for each component its parent and its counter (`mParent`, `mTime`), and for each
signal flow its component (`AudioSignalFlow::mFlow`). -/
structure State where
  counters : List Counter
  comps : List (Option Nat × Nat)
  flows : List Nat
  deriving DecidableEq, Repr

/-- The program before the first component is created. -/
def init : State := ⟨[], [], []⟩

/-- What the methods `blockCount()`, `sampleCount()` and `renderingTime()` of `Component::time()` return. -/
structure Reading where
  blockCount : Nat
  sampleCount : Nat
  renderingTime : ℚ
  deriving DecidableEq

/-- `TimeImplementation::blockCount()`, `sampleCount()` and `renderingTime()` (`time_implementation.cpp:23-52`): the product
in `sampleCount()` is calculated in `std::size_t`. Reading the indeterminate counter is undefined. -/
def Counter.read (k : Counter) : Outcome Reading :=
  match k.blocks with
  | none => .ub
  | some n => .ok
      { blockCount := n
        sampleCount := n * k.context.period % 2 ^ 64
        renderingTime := ((n * k.context.period % 2 ^ 64 : Nat) : ℚ) * (1 / (k.context.samplingFrequency : ℚ)) }

/-- `Component::time()` of a component followed by a method of `Time` (`time.cpp:16-32`). -/
def read (s : State) (c : Nat) : Outcome Reading :=
  match s.comps[c]? with
  | none => .ub
  | some pk => match s.counters[pk.2]? with
    | none => .ub
    | some k => k.read

/-- `TimeImplementation::resetCounter()` (`time_implementation.cpp:34-37`). -/
def Counter.reset (k : Counter) : Counter := { k with blocks := some 0 }

/-- `TimeImplementation::advanceBlockCounter()` (`time_implementation.cpp:39-42`): an increment of `std::size_t`. -/
def Counter.advance (k : Counter) : Counter := { k with blocks := k.blocks.map fun n => (n + 1) % 2 ^ 64 }

/-- The constructor of a component (`component_implementation.cpp:27-46`): a component without a parent creates a counter,
the others take over the counter of their parent, whatever context they are given. -/
def construct (s : State) (context : Context) (parent : Option Nat) : Outcome State :=
  match parent with
  | none => .ok { s with counters := s.counters ++ [⟨context, none⟩], comps := s.comps ++ [(none, s.counters.length)] }
  | some p => match s.comps[p]? with
    | none => .ub
    | some pk => .ok { s with comps := s.comps ++ [(some p, pk.2)] }

/-- The constructor of `AudioSignalFlow` (`audio_signal_flow.cpp:62-115`): the counter is reset at the end if all checks
succeed, otherwise the constructor has thrown before. -/
def createFlow (s : State) (c : Nat) (accepted : Bool) : Outcome State :=
  match s.comps[c]? with
  | none => .ub
  | some pk =>
    if accepted then .ok { s with counters := s.counters.modify pk.2 Counter.reset, flows := s.flows ++ [c] }
    else .ok s

/-- `executeComponents()` (`audio_signal_flow.cpp:220-262`): the components `called` are those of the schedule up to the one
which throws if `fails`. The result contains what they read from their clocks. The counter is advanced after the last
component, unless a component has thrown. -/
def process (s : State) (f : Nat) (called : List Nat) (fails : Bool) : Outcome (State × List (Outcome Reading)) :=
  match s.flows[f]? with
  | none => .ub
  | some c => match s.comps[c]? with
    | none => .ub
    | some pk =>
      if fails then .ok (s, called.map (read s))
      else .ok ({ s with counters := s.counters.modify pk.2 Counter.advance }, called.map (read s))

/-- The calls of a program. -/
inductive Op where
  /-- A component is constructed. -/
  | component (context : Context) (parent : Option Nat)
  /-- A signal flow is constructed for a component. -/
  | flow (c : Nat) (accepted : Bool)
  /-- A block is processed by a signal flow. -/
  | process (f : Nat) (called : List Nat) (fails : Bool)
  deriving DecidableEq, Repr

/-- One call. -/
def step (s : State) : Op → Outcome State
  | .component context parent => construct s context parent
  | .flow c accepted => createFlow s c accepted
  | .process f called fails => (process s f called fails).map (·.1)

/-- A history of calls. -/
def run : State → List Op → Outcome State
  | s, [] => .ok s
  | s, o :: os => (step s o).bind fun s' => run s' os

end Visr.Clock
