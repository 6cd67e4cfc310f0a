import Verif.Run

/-!
# Communication protocols

Models `src/libpml/message_queue_protocol.{hpp,cpp}`, `src/libpml/double_buffering_protocol.{hpp,cpp}` and
`src/libpml/shared_data_protocol.{hpp,cpp}`: one protocol instance together with all ports that may be attached to it.

Ports are identified by numbers (their addresses). `typed p` says whether the `dynamic_cast` of port `p` to the port class
of the protocol succeeds; a null pointer is a port with `typed p = false`. The member `mProtocol` of a port is represented
by one Boolean per port, saying whether it points to this protocol instance or is null; using a port whose pointer is null
dereferences a null pointer, i.e., is undefined behaviour. Input and output ports are separate classes, hence separate
number spaces. Other protocol instances are not modelled. After undefined behaviour the model leaves the state as it was;
theorems about histories exclude such histories or do not depend on what happens afterwards.
-/

namespace Visr.Protocol
open Visr

abbrev PortId := Nat

/-- Values returned by protocol operations. -/
inductive Res (α : Type u) where
  | unit
  | bool (b : Bool)
  | size (n : Nat)
  | val (a : α)
  deriving DecidableEq, Repr

def upd (f : PortId → Bool) (p : PortId) (b : Bool) : PortId → Bool := fun q => if q = p then b else f q

/-! ## MessageQueueProtocol -/

/-- `MessageQueueProtocol` members (`message_queue_protocol.hpp:94-105`) plus the `mProtocol` pointers of the ports
(`:169`, `:231`). `queue` is the `std::deque`, head of the list = front of the deque. -/
structure MQ (α : Type u) where
  queue : List α
  input : Option PortId
  output : Option PortId
  inPtr : PortId → Bool
  outPtr : PortId → Bool

/-- Freshly constructed protocol and unconnected ports, `message_queue_protocol.cpp:10-17`, `.hpp:119-122, 191-194`. -/
def MQ.init : MQ α := ⟨[], none, none, fun _ => false, fun _ => false⟩

inductive MQOp (α : Type u) where
  | enqueue (p : PortId) (v : α)
  | front (p : PortId)
  | pop (p : PortId)
  | clear (p : PortId)
  | empty (p : PortId)
  | size (p : PortId)
  | connectInput (p : PortId)
  | connectOutput (p : PortId)
  | disconnectInput (p : PortId)
  | disconnectOutput (p : PortId)

/-- `MessageQueueProtocol::enqueue`, `message_queue_protocol.cpp:46-49`: `mQueue.push_front`. -/
def MQ.enqueue (s : MQ α) (v : α) : MQ α := { s with queue := v :: s.queue }

/-- `MessageQueueProtocol::nextElement`, `message_queue_protocol.cpp:51-58`: `*(mQueue.back())`. -/
def MQ.nextElement (s : MQ α) : Outcome (Res α) :=
  match s.queue.getLast? with
  | none => .throw .logicError
  | some v => .ok (.val v)

/-- `MessageQueueProtocol::popNextElement`, `message_queue_protocol.cpp:60-67`: `mQueue.pop_back()`. -/
def MQ.popNextElement (s : MQ α) : MQ α × Outcome (Res α) :=
  if s.queue.isEmpty then (s, .throw .logicError) else ({ s with queue := s.queue.dropLast }, .ok .unit)

/-- `MessageQueueProtocol::connectInput`, `message_queue_protocol.cpp:69-82`. -/
def MQ.connectInput (typed : PortId → Bool) (s : MQ α) (p : PortId) : MQ α × Outcome (Res α) :=
  if !typed p then (s, .throw .invalidArgument)
  else if s.input.isSome then (s, .throw .invalidArgument)
  else ({ s with input := some p, inPtr := upd s.inPtr p true }, .ok .unit)

/-- `MessageQueueProtocol::connectOutput`, `message_queue_protocol.cpp:84-97`. -/
def MQ.connectOutput (typed : PortId → Bool) (s : MQ α) (p : PortId) : MQ α × Outcome (Res α) :=
  if !typed p then (s, .throw .invalidArgument)
  else if s.output.isSome then (s, .throw .invalidArgument)
  else ({ s with output := some p, outPtr := upd s.outPtr p true }, .ok .unit)

/-- `MessageQueueProtocol::disconnectInput`, `message_queue_protocol.cpp:99-114`. -/
def MQ.disconnectInput (typed : PortId → Bool) (s : MQ α) (p : PortId) : MQ α × Outcome (Res α) :=
  if !typed p then (s, .ok (.bool false))
  else if some p ≠ s.input then (s, .ok (.bool false))
  else ({ s with input := none, inPtr := upd s.inPtr p false }, .ok (.bool true))

/-- `MessageQueueProtocol::disconnectOutput`, `message_queue_protocol.cpp:116-131`. -/
def MQ.disconnectOutput (typed : PortId → Bool) (s : MQ α) (p : PortId) : MQ α × Outcome (Res α) :=
  if !typed p then (s, .ok (.bool false))
  else if some p ≠ s.output then (s, .ok (.bool false))
  else ({ s with output := none, outPtr := upd s.outPtr p false }, .ok (.bool true))

/-- One call on a port or on the protocol. Port methods (`message_queue_protocol.hpp:132-155`, `204-218`) forward to
`mProtocol`, which must not be null. `inT`/`outT` say which ports have the port class of this protocol. -/
def MQ.step (inT outT : PortId → Bool) (s : MQ α) : MQOp α → MQ α × Outcome (Res α)
  | .enqueue p v => if s.outPtr p then (s.enqueue v, .ok .unit) else (s, .ub)
  | .front p => if s.inPtr p then (s, s.nextElement) else (s, .ub)
  | .pop p => if s.inPtr p then s.popNextElement else (s, .ub)
  | .clear p => if s.inPtr p then ({ s with queue := [] }, .ok .unit) else (s, .ub)
  | .empty p => if s.inPtr p then (s, .ok (.bool s.queue.isEmpty)) else (s, .ub)
  | .size p => if s.inPtr p then (s, .ok (.size s.queue.length)) else (s, .ub)
  | .connectInput p => s.connectInput inT p
  | .connectOutput p => s.connectOutput outT p
  | .disconnectInput p => s.disconnectInput inT p
  | .disconnectOutput p => s.disconnectOutput outT p

/-! ## DoubleBufferingProtocol -/

/-- `DoubleBufferingProtocol` members (`double_buffering_protocol.hpp:119-126`) plus the members `mProtocol` and `mChanged`
of the ports (`:161-162`, `:218`). -/
structure DB (α : Type u) where
  back : α
  front : α
  inputs : List PortId
  output : Option PortId
  inPtr : PortId → Bool
  outPtr : PortId → Bool
  changed : PortId → Bool

/-- Constructor: both buffers are created by the parameter factory from the same configuration, hence start with the same
value `d`; input ports start with `mChanged = false` (`double_buffering_protocol.cpp:14-23, 134-138`). -/
def DB.init (d : α) : DB α := ⟨d, d, [], none, fun _ => false, fun _ => false, fun _ => false⟩

inductive DBOp (α : Type u) where
  /-- Modify the parameter through the reference returned by `OutputBase::data()`. -/
  | modify (p : PortId) (f : α → α)
  /-- Read the sender's own buffer through `OutputBase::data()`. -/
  | readOut (p : PortId)
  | swap (p : PortId) (copyValue : Bool)
  /-- `InputBase::data()` -/
  | read (p : PortId)
  | changed (p : PortId)
  | resetChanged (p : PortId)
  | connectInput (p : PortId)
  | connectOutput (p : PortId)
  | disconnectInput (p : PortId)
  | disconnectOutput (p : PortId)

/-- `DoubleBufferingProtocol::swapBuffers`, `double_buffering_protocol.cpp:52-60`. `ParameterBase::assign` is modelled as
assignment (both buffers have the same dynamic type, so it cannot fail). -/
def DB.swapBuffers (s : DB α) (copyValue : Bool) : DB α :=
  let back1 := if copyValue then s.front else s.back
  { s with
    back := s.front
    front := back1
    changed := fun q => if s.inputs.contains q then true else s.changed q }

/-- `DoubleBufferingProtocol::connectInput`, `double_buffering_protocol.cpp:62-74`. -/
def DB.connectInput (typed : PortId → Bool) (s : DB α) (p : PortId) : DB α × Outcome (Res α) :=
  if !typed p then (s, .throw .invalidArgument)
  else
    ({ s with inputs := if s.inputs.contains p then s.inputs else s.inputs ++ [p], inPtr := upd s.inPtr p true },
      .ok .unit)

/-- `DoubleBufferingProtocol::connectOutput`, `double_buffering_protocol.cpp:76-89`. -/
def DB.connectOutput (typed : PortId → Bool) (s : DB α) (p : PortId) : DB α × Outcome (Res α) :=
  if !typed p then (s, .throw .invalidArgument)
  else if s.output.isSome then (s, .throw .invalidArgument)
  else ({ s with output := some p, outPtr := upd s.outPtr p true }, .ok .unit)

/-- `DoubleBufferingProtocol::disconnectInput`, `double_buffering_protocol.cpp:91-107`; erases the first occurrence. -/
def DB.disconnectInput (typed : PortId → Bool) (s : DB α) (p : PortId) : DB α × Outcome (Res α) :=
  if !typed p then (s, .ok (.bool false))
  else if !s.inputs.contains p then (s, .ok (.bool false))
  else ({ s with inputs := s.inputs.erase p, inPtr := upd s.inPtr p false }, .ok (.bool true))

/-- `DoubleBufferingProtocol::disconnectOutput`, `double_buffering_protocol.cpp:109-124`. -/
def DB.disconnectOutput (typed : PortId → Bool) (s : DB α) (p : PortId) : DB α × Outcome (Res α) :=
  if !typed p then (s, .ok (.bool false))
  else if some p ≠ s.output then (s, .ok (.bool false))
  else ({ s with output := none, outPtr := upd s.outPtr p false }, .ok (.bool true))

/-- One call on a port or on the protocol (`double_buffering_protocol.cpp:142-155, 184-192`). `changed()`/`resetChanged()`
do not touch the protocol pointer. -/
def DB.step (inT outT : PortId → Bool) (s : DB α) : DBOp α → DB α × Outcome (Res α)
  | .modify p f => if s.outPtr p then ({ s with front := f s.front }, .ok .unit) else (s, .ub)
  | .readOut p => if s.outPtr p then (s, .ok (.val s.front)) else (s, .ub)
  | .swap p c => if s.outPtr p then (s.swapBuffers c, .ok .unit) else (s, .ub)
  | .read p => if s.inPtr p then (s, .ok (.val s.back)) else (s, .ub)
  | .changed p => (s, .ok (.bool (s.changed p)))
  | .resetChanged p => ({ s with changed := upd s.changed p false }, .ok .unit)
  | .connectInput p => s.connectInput inT p
  | .connectOutput p => s.connectOutput outT p
  | .disconnectInput p => s.disconnectInput inT p
  | .disconnectOutput p => s.disconnectOutput outT p

/-! ## SharedDataProtocol -/

/-- `SharedDataProtocol` members (`shared_data_protocol.hpp:75-78`) plus the ports' `mProtocol` (`:112`, `:165`). -/
structure SD (α : Type u) where
  data : α
  inputs : List PortId
  output : Option PortId
  inPtr : PortId → Bool
  outPtr : PortId → Bool

/-- `shared_data_protocol.cpp:14-22`. -/
def SD.init (d : α) : SD α := ⟨d, [], none, fun _ => false, fun _ => false⟩

inductive SDOp (α : Type u) where
  | modify (p : PortId) (f : α → α)
  | read (p : PortId)
  | connectInput (p : PortId)
  | connectOutput (p : PortId)
  | disconnectInput (p : PortId)
  | disconnectOutput (p : PortId)

/-- `SharedDataProtocol::connectInput`, `shared_data_protocol.cpp:36-48`. -/
def SD.connectInput (typed : PortId → Bool) (s : SD α) (p : PortId) : SD α × Outcome (Res α) :=
  if !typed p then (s, .throw .invalidArgument)
  else if s.inputs.contains p then (s, .ok .unit)
  else ({ s with inputs := s.inputs ++ [p], inPtr := upd s.inPtr p true }, .ok .unit)

/-- `SharedDataProtocol::connectOutput`, `shared_data_protocol.cpp:50-63`. -/
def SD.connectOutput (typed : PortId → Bool) (s : SD α) (p : PortId) : SD α × Outcome (Res α) :=
  if !typed p then (s, .throw .invalidArgument)
  else if s.output.isSome then (s, .throw .invalidArgument)
  else ({ s with output := some p, outPtr := upd s.outPtr p true }, .ok .unit)

/-- `SharedDataProtocol::disconnectInput`, `shared_data_protocol.cpp:65-80`. -/
def SD.disconnectInput (typed : PortId → Bool) (s : SD α) (p : PortId) : SD α × Outcome (Res α) :=
  if !typed p then (s, .ok (.bool false))
  else if !s.inputs.contains p then (s, .ok (.bool false))
  else ({ s with inputs := s.inputs.erase p, inPtr := upd s.inPtr p false }, .ok (.bool true))

/-- `SharedDataProtocol::disconnectOutput`, `shared_data_protocol.cpp:82-97`. -/
def SD.disconnectOutput (typed : PortId → Bool) (s : SD α) (p : PortId) : SD α × Outcome (Res α) :=
  if !typed p then (s, .ok (.bool false))
  else if some p ≠ s.output then (s, .ok (.bool false))
  else ({ s with output := none, outPtr := upd s.outPtr p false }, .ok (.bool true))

/-- One call on a port or on the protocol. -/
def SD.step (inT outT : PortId → Bool) (s : SD α) : SDOp α → SD α × Outcome (Res α)
  | .modify p f => if s.outPtr p then ({ s with data := f s.data }, .ok .unit) else (s, .ub)
  | .read p => if s.inPtr p then (s, .ok (.val s.data)) else (s, .ub)
  | .connectInput p => s.connectInput inT p
  | .connectOutput p => s.connectOutput outT p
  | .disconnectInput p => s.disconnectInput inT p
  | .disconnectOutput p => s.disconnectOutput outT p

end Visr.Protocol
