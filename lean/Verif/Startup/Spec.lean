import Verif.Flow.Spec
import Verif.Layout.Spec
import Verif.Placeholder.Spec

/-!
# Starting a signal flow: from the component tree to buffers

The constructor of `AudioSignalFlow` (`src/librrl/audio_signal_flow.cpp:61-117`) checks the connections, collects them from
all levels, resolves the ports of inner composites and assigns buffers. This file describes the ports of a tree.
-/

namespace Visr.Startup
open Visr Visr.Flow

mutual
/-- All audio ports of a component and of the components in it. -/
def allPorts : Comp → List APort
  | .atom a _ => a
  | .composite a _ ch _ _ => a ++ allPortsL ch
/-- All audio ports of several components. -/
def allPortsL : List Comp → List APort
  | [] => []
  | c :: cs => allPorts c ++ allPortsL cs
end

mutual
/-- The audio ports of a component inside the flow that are placeholders (`isPlaceholderPort()`,
`src/librrl/port_utilities.cpp:20-34`): all ports of composites. -/
def placeholders : Comp → List APort
  | .atom _ _ => []
  | .composite a _ ch _ _ => a ++ placeholdersL ch
/-- The placeholder ports of several components. -/
def placeholdersL : List Comp → List APort
  | [] => []
  | c :: cs => placeholders c ++ placeholdersL cs
end

mutual
/-- The real inputs inside a component: inputs of the atomic components. -/
def atomInputs : Comp → List APort
  | .atom a _ => a.filter fun p => p.input
  | .composite _ _ ch _ _ => atomInputsL ch
/-- The real inputs inside several components. -/
def atomInputsL : List Comp → List APort
  | [] => []
  | c :: cs => atomInputs c ++ atomInputsL cs
end

/-- Is the channel one of a placeholder port? The ports of the top-level flow itself are no placeholders. -/
def isPlaceholder (children : List Comp) (x : Flow.Chan) : Bool := decide (x.1 ∈ (placeholdersL children).map APort.id)

/-- A channel of a real receiver: an output of the flow or an input of an atomic component. -/
def RealReceiver (own : List APort) (children : List Comp) (x : Flow.Chan) : Prop :=
  ∃ p, ((p ∈ own ∧ p.input = false) ∨ p ∈ atomInputsL children) ∧ p.id = x.1 ∧ x.2 < p.width

end Visr.Startup
