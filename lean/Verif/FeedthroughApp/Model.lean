import Verif.Wiring.Model

/-!
# The feedthrough application

Models `/repo/src/apps/feedthrough/signal_flow.cpp` and `/repo/src/apps/feedthrough/signal_flow.hpp`: the composite
component `Feedthrough`, which connects the inputs to the outputs. The checks of connections are those of
`Verif.Wiring.Model`. The `main` function and the options are not modelled here.
-/

namespace Visr.FeedthroughApp
open Visr Visr.Flow Visr.Wiring

/-- `mInput` (`signal_flow.cpp:24`). -/
def input (inputs : Nat) : APort := { id := 0, input := true, width := inputs, sampleType := 0 }

/-- `mOutput` (`signal_flow.cpp:25`). -/
def output (outputs : Nat) : APort := { id := 1, input := false, width := outputs, sampleType := 0 }

/-- The input of `mTerminator` (`signal_flow.cpp:26-27`, `signal_flow.hpp:28-48`). -/
def terminator (inputs outputs : Nat) : APort :=
  { id := 2, input := true, width := if inputs > outputs then inputs - outputs else 0, sampleType := 0 }

/-- `ChannelRange( start, end )` as a list of channels (`channel_list.cpp:24-33, 109-115`), `start ≤ end`. -/
def range (start stop : Nat) : List Nat := List.range' start (stop - start)

/-- The loop (`signal_flow.cpp:38-45`). The first argument is the number of iterations after which the observation ends;
`none`: the loop is still running then. -/
def loop (inputs outputs : Nat) : Nat → Nat → Tables → Option (Outcome Tables)
  | 0, _, _ => none
  | n + 1, start, t =>
    if start < outputs then
      let curr := min inputs (outputs - start)
      match connectLists (input inputs) (range 0 curr) (output outputs) (range start (start + curr)) t with
      | .ok t' => loop inputs outputs n (start + curr) t'
      | .throw e => some (.throw e)
      | .ub => some .ub
    else some (.ok t)

/-- The constructor (`signal_flow.cpp:18-47`), observed for a number of iterations of its loop. -/
def construct (inputs outputs : Nat) (iterations : Nat) : Option (Outcome Tables) :=
  if inputs > outputs then
    some (match connectLists (input inputs) (range 0 outputs) (output outputs) (range 0 outputs) ⟨[], []⟩ with
      | .ok t => connectLists (input inputs) (range outputs inputs) (terminator inputs outputs)
          (range 0 (inputs - outputs)) t
      | .throw e => .throw e
      | .ub => .ub)
  else loop inputs outputs iterations 0 ⟨[], []⟩

end Visr.FeedthroughApp
