import Verif.Flow.Model
import Verif.Protocol.Model
import Verif.Placeholder.Model

/-!
# Parameter infrastructure of a signal flow

Models `rrl::ParameterConnectionGraph` (`src/librrl/parameter_connection_graph.cpp`), the function `fillRecursive` for
parameter connections (`src/librrl/parameter_connection_map.cpp`) and
`AudioSignalFlow::initialiseParameterInfrastructure` (`src/librrl/audio_signal_flow.cpp`): from the connections of the
components to the communication protocol objects that the ports are attached to.

Ports are identified by their address, a natural number. The endpoint that the flow creates for a top-level port has the
address of that port; this is no ambiguity, because top-level ports of composite flows are not attached to a protocol
themselves, and for atomic flows the endpoint of an input is an output and vice versa. The protocol objects are those of
`Verif/Protocol`. Protocols registered by users are not modelled, nor are messages.
-/

namespace Visr.ParamFlow
open Visr Visr.Flow Visr.Protocol

/-- The protocols of the library. -/
inductive Kind where
  | messageQueue
  | doubleBuffering
  | sharedData
  deriving DecidableEq, Repr

/-- What the functions below get to know about ports and factories. -/
structure Env (α : Type) where
  /-- direction, protocol type, parameter type and configuration of a port -/
  port : Nat → PPort
  /-- `port->name()` -/
  name : Nat → String
  /-- `port->parent().isTopLevel()` (`port_utilities.cpp:35-38`) -/
  top : Nat → Bool
  /-- `CommunicationProtocolFactory::creatorTable()` (`communication_protocol_factory.cpp:92-97`) -/
  kind : Nat → Option Kind
  /-- `ParameterFactory::create( type, config )`, `none` if it throws -/
  create : Nat → Nat → Option α
  /-- `ParameterConfigBase::compare`, `none` if it throws -/
  cmp : Nat → Nat → Option Bool

/-! ## ParameterConnectionGraph -/

/-- `mConnectionGraph` while it is built: vertices in the order of their indices, and undirected edges. -/
structure Graph where
  vertices : List Nat
  edges : List (Nat × Nat)

/-- `mVertexLookup.find`, and `add_vertex` if there is none (`parameter_connection_graph.cpp:31-42`, `43-54`). -/
def Graph.vertex (g : Graph) (p : Nat) : Graph := if p ∈ g.vertices then g else { g with vertices := g.vertices ++ [p] }

/-- The loop over the connections (`parameter_connection_graph.cpp:29-72`). Connections are pairs (receiver, sender). -/
def Graph.build : List (Nat × Nat) → Graph → Outcome Graph
  | [], g => .ok g
  | (r, s) :: ks, g =>
    let g' := (g.vertex s).vertex r
    if (s, r) ∈ g'.edges ∨ (r, s) ∈ g'.edges then .throw .logicError
    else build ks { g' with edges := g'.edges ++ [(s, r)] }

/-- Give all ports with the label of `b` the label of `a`. -/
def relabel (lab : Nat → Nat) (a b : Nat) : Nat → Nat := fun x => if lab x = lab b then lab a else lab x

/-- The result of `boost::connected_components` (`parameter_connection_graph.cpp:82`) up to the numbering: ports have the
same label iff they are connected. The library function itself is not modelled; labels are merged edge by edge here. -/
def labels (edges : List (Nat × Nat)) : Nat → Nat := edges.foldl (fun lab e => relabel lab e.1 e.2) id

/-- The labels in the order of their first vertices, which is how `boost::connected_components` numbers them. -/
def leaders (lab : Nat → Nat) : List Nat → List Nat → List Nat
  | _, [] => []
  | seen, v :: vs => if lab v ∈ seen then leaders lab seen vs else lab v :: leaders lab (lab v :: seen) vs

/-- Receiving ports (`parameter_connection_graph.cpp:93-94`). -/
def receives {α : Type} (env : Env α) (p : Nat) : Bool :=
  (!env.top p && (env.port p).input) || (env.top p && !(env.port p).input)

/-- `ConnectedPorts` (`parameter_connection_graph.hpp:33-50`). -/
structure Connected where
  senders : List Nat
  receivers : List Nat

/-- `numReceivers()` returns the number of senders (`parameter_connection_graph.hpp:45`). -/
def Connected.numReceivers (c : Connected) : Nat := c.senders.length

/-- The ports of each connected component (`parameter_connection_graph.cpp:74-103`). -/
def Graph.connected {α : Type} (env : Env α) (g : Graph) : List Connected :=
  let lab := labels g.edges
  (leaders lab [] g.vertices).map fun l =>
    let ports := g.vertices.filter fun p => lab p = l
    ⟨ports.filter fun p => !receives env p, ports.filter fun p => receives env p⟩

/-! ## Protocol objects -/

/-- A `CommunicationProtocolBase` object. -/
inductive Proto (α : Type) where
  | mq (s : MQ α)
  | db (s : DB α)
  | sd (s : SD α)

/-- A protocol object with its protocol type and parameter type. -/
structure Inst (α : Type) where
  protocol : Nat
  type : Nat
  state : Proto α

/-- `CommunicationProtocolFactory::createProtocol()` (`communication_protocol_factory.cpp:99-112`) and the constructors of
the protocols; message queues do not create a parameter (`message_queue_protocol.cpp:10-17`). -/
def createProtocol {α : Type} (env : Env α) (protocol type config : Nat) : Outcome (Inst α) :=
  match env.kind protocol with
  | none => .throw .outOfRange
  | some .messageQueue => .ok ⟨protocol, type, .mq MQ.init⟩
  | some .doubleBuffering =>
    match env.create type config with
    | none => .throw .invalidArgument
    | some d => .ok ⟨protocol, type, .db (DB.init d)⟩
  | some .sharedData =>
    match env.create type config with
    | none => .throw .invalidArgument
    | some d => .ok ⟨protocol, type, .sd (SD.init d)⟩

/-- Whether the endpoint at address `p` has the class that the protocol object expects: the endpoint of a port is created
for the protocol of the port (`polymorphic_parameter_input.cpp:16`, `polymorphic_parameter_output.cpp:16` and the typed
ports), an endpoint for a top-level port is created for the protocol of this object. -/
def Inst.typed {α : Type} (env : Env α) (i : Inst α) (p : Nat) : Bool :=
  env.top p || (env.port p).protocol == i.protocol

/-- `connectOutput()` of the protocol object (`Verif/Protocol`). -/
def Inst.connectOutput {α : Type} (env : Env α) (i : Inst α) (p : Nat) : Inst α × Outcome (Res α) :=
  match i.state with
  | .mq s => let r := s.connectOutput (i.typed env) p; ({ i with state := .mq r.1 }, r.2)
  | .db s => let r := s.connectOutput (i.typed env) p; ({ i with state := .db r.1 }, r.2)
  | .sd s => let r := s.connectOutput (i.typed env) p; ({ i with state := .sd r.1 }, r.2)

/-- `connectInput()` of the protocol object (`Verif/Protocol`). -/
def Inst.connectInput {α : Type} (env : Env α) (i : Inst α) (p : Nat) : Inst α × Outcome (Res α) :=
  match i.state with
  | .mq s => let r := s.connectInput (i.typed env) p; ({ i with state := .mq r.1 }, r.2)
  | .db s => let r := s.connectInput (i.typed env) p; ({ i with state := .db r.1 }, r.2)
  | .sd s => let r := s.connectInput (i.typed env) p; ({ i with state := .sd r.1 }, r.2)

/-! ## initialiseParameterInfrastructure -/

/-- A map from port names to endpoints (`mProtocolReceiveEndpoints`, `mProtocolSendEndpoints`). -/
abbrev Ends := List (String × Nat)

/-- `std::map::insert`. If the name exists already, the new endpoint is destroyed although the protocol object refers to
it; this is the outcome `none` (not reached, as the names of the ports of a component differ). -/
def Ends.insert (e : Ends) (name : String) (p : Nat) : Option Ends :=
  if name ∈ e.map Prod.fst then none else some (e ++ [(name, p)])

/-- Variables while the ports of one connection are attached: the protocol object, the two maps of external endpoints,
and `result`. -/
structure Work (α : Type) where
  inst : Inst α
  receive : Ends
  send : Ends
  ok : Bool

/-- The loop over the sending ports (`audio_signal_flow.cpp:490-515`). An exception for a top-level port leaves the loop. -/
def connectSenders {α : Type} (env : Env α) : List Nat → Work α → Work α × Outcome Unit
  | [], w => (w, .ok ())
  | p :: ps, w =>
    match w.inst.connectOutput env p with
    | (i, .ok _) =>
      if env.top p then
        match w.receive.insert (env.name p) p with
        | none => (w, .ub)
        | some e => connectSenders env ps ⟨i, e, w.send, w.ok⟩
      else connectSenders env ps ⟨i, w.receive, w.send, w.ok⟩
    | (i, .throw e) =>
      if env.top p then (⟨i, w.receive, w.send, w.ok⟩, .throw e)
      else connectSenders env ps ⟨i, w.receive, w.send, false⟩
    | (i, .ub) => (⟨i, w.receive, w.send, w.ok⟩, .ub)

/-- The loop over the receiving ports (`audio_signal_flow.cpp:516-539`). Here the endpoint of a top-level port gets into
the map before it is connected. -/
def connectReceivers {α : Type} (env : Env α) : List Nat → Work α → Work α × Outcome Unit
  | [], w => (w, .ok ())
  | p :: ps, w =>
    if env.top p then
      match w.send.insert (env.name p) p with
      | none => (w, .ub)
      | some e =>
        match w.inst.connectInput env p with
        | (i, .ok _) => connectReceivers env ps ⟨i, w.receive, e, w.ok⟩
        | (i, .throw x) => (⟨i, w.receive, e, w.ok⟩, .throw x)
        | (i, .ub) => (⟨i, w.receive, e, w.ok⟩, .ub)
    else
      match w.inst.connectInput env p with
      | (i, .ok _) => connectReceivers env ps ⟨i, w.receive, w.send, w.ok⟩
      | (i, .throw _) => connectReceivers env ps ⟨i, w.receive, w.send, false⟩
      | (i, .ub) => (⟨i, w.receive, w.send, w.ok⟩, .ub)

/-- Members of `AudioSignalFlow` set up here (`audio_signal_flow.hpp`): protocol objects and external endpoints. -/
structure State (α : Type) where
  protocols : List (Inst α)
  receive : Ends
  send : Ends

/-- The `try` block (`audio_signal_flow.cpp:476-547`) with `result` so far; `none` is undefined behaviour. -/
def attach {α : Type} (env : Env α) (c : Connected) (ref : Nat) (st : State α) (result : Bool) : Option (State α × Bool) :=
  match createProtocol env (env.port ref).protocol (env.port ref).type (env.port ref).config with
  | .ub => none
  | .throw _ => some (st, false)
  | .ok i =>
    match connectSenders env c.senders ⟨i, st.receive, st.send, result⟩ with
    | (_, .ub) => none
    | (w, .throw _) => some (⟨st.protocols, w.receive, w.send⟩, false)
    | (w, .ok _) =>
      match connectReceivers env c.receivers w with
      | (_, .ub) => none
      | (w', .throw _) => some (⟨st.protocols, w'.receive, w'.send⟩, false)
      | (w', .ok _) => some (⟨st.protocols ++ [w'.inst], w'.receive, w'.send⟩, w'.ok)

/-- The body of the loop over the connections (`audio_signal_flow.cpp:431-547`). -/
def handle {α : Type} (env : Env α) (c : Connected) (st : State α) (result : Bool) : Option (State α × Bool) :=
  let r1 := if c.senders.length < 1 then false else result
  let r2 := if c.numReceivers < 1 then false else r1
  match c.senders with
  | [] => some (st, r2)
  | ref :: others =>
    let r3 := r2 && others.all (fun p => compatible env.cmp (env.port ref) (env.port p))
    let r4 := r3 && c.receivers.all (fun p => compatible env.cmp (env.port ref) (env.port p))
    attach env c ref st r4

/-- The loop over the connections (`audio_signal_flow.cpp:429-548`). -/
def handleAll {α : Type} (env : Env α) : List Connected → State α → Bool → Option (State α × Bool)
  | [], st, result => some (st, result)
  | c :: cs, st, result =>
    match handle env c st result with
    | none => none
    | some (st', r) => handleAll env cs st' r

/-- `initialiseParameterInfrastructure()` for a composite flow (`audio_signal_flow.cpp:427-554`). -/
def initialise {α : Type} (env : Env α) (conns : List (Nat × Nat)) : Outcome (State α × Bool) :=
  match Graph.build conns ⟨[], []⟩ with
  | .ub => .ub
  | .throw e => .throw e
  | .ok g =>
    match handleAll env (g.connected env) ⟨[], [], []⟩ true with
    | none => .ub
    | some r => .ok r

/-- The loop over the ports of an atomic flow (`audio_signal_flow.cpp:389-426`). Exceptions leave the function. -/
def initialiseAtomic {α : Type} (env : Env α) : List Nat → State α → Outcome (State α)
  | [], st => .ok st
  | p :: ps, st =>
    match createProtocol env (env.port p).protocol (env.port p).type (env.port p).config with
    | .ub => .ub
    | .throw e => .throw e
    | .ok i =>
      if (env.port p).input then
        match i.connectInput env p with
        | (_, .ub) => .ub
        | (_, .throw e) => .throw e
        | (i', .ok _) =>
          match i'.connectOutput env p with
          | (_, .ub) => .ub
          | (_, .throw e) => .throw e
          | (i'', .ok _) =>
            match st.receive.insert (env.name p) p with
            | none => .ub
            | some e => initialiseAtomic env ps ⟨st.protocols ++ [i''], e, st.send⟩
      else
        match i.connectOutput env p with
        | (_, .ub) => .ub
        | (_, .throw e) => .throw e
        | (i', .ok _) =>
          match i'.connectInput env p with
          | (_, .ub) => .ub
          | (_, .throw e) => .throw e
          | (i'', .ok _) =>
            match st.send.insert (env.name p) p with
            | none => .ub
            | some e => initialiseAtomic env ps ⟨st.protocols ++ [i''], st.receive, e⟩

/-- `externalParameterReceivePort()` and `externalParameterSendPort()` (`audio_signal_flow.cpp:556-575`). -/
def Ends.lookup (e : Ends) (name : String) : Outcome Nat :=
  match e.find? fun x => x.1 = name with
  | none => .throw .outOfRange
  | some x => .ok x.2

/-! ## From the component tree to the connections -/

/-- The loop over the connections of one composite (`parameter_connection_map.cpp:54-80`). The table is a multimap
ordered by receiver addresses, here a list in the order of registration: the order is used for composite ports with several
senders only. -/
def fillLocal (cmp : Nat → Nat → Option Bool) (sends receives : List PPort) : List PConn → List (Nat × Nat) × Bool
  | [] => ([], true)
  | k :: ks =>
    let rest := fillLocal cmp sends receives ks
    match sends.find? fun p => p.id = k.sender with
    | none => (rest.1, false)
    | some s =>
      match receives.find? fun p => p.id = k.receiver with
      | none => (rest.1, false)
      | some r => ((k.receiver, k.sender) :: rest.1, compatible cmp s r && rest.2)

mutual
/-- `fillRecursive()` for parameter connections (`parameter_connection_map.cpp:19-90`). -/
def fillTree (cmp : Nat → Nat → Option Bool) : Comp → List (Nat × Nat) × Bool
  | .atom _ _ => ([], true)
  | .composite _ own children _ pconns =>
    let l := fillLocal cmp (sendPorts PPort.input own (children.map Comp.param))
      (receivePorts PPort.input own (children.map Comp.param)) pconns
    let r := fillForest cmp children l.2
    (l.1 ++ r.1, r.2)
/-- The loop over the contained components (`parameter_connection_map.cpp:81-88`): none is visited after a failure. -/
def fillForest (cmp : Nat → Nat → Option Bool) : List Comp → Bool → List (Nat × Nat) × Bool
  | [], res => ([], res)
  | c :: cs, res =>
    if res then
      let l := fillTree cmp c
      let r := fillForest cmp cs l.2
      (l.1 ++ r.1, r.2)
    else fillForest cmp cs false
end

mutual
/-- Addresses of the parameter ports of all composites in the tree. -/
def compositePorts : Comp → List Nat
  | .atom _ _ => []
  | .composite _ own children _ _ => own.map PPort.id ++ compositePortsAll children
/-- The same for a list of components. -/
def compositePortsAll : List Comp → List Nat
  | [] => []
  | c :: cs => compositePorts c ++ compositePortsAll cs
end

/-- `isPlaceholderPort()` (`port_utilities.cpp:20-33`): the parent is a composite, and not the top-level component. -/
def isPlaceholder (flow : Comp) (p : Nat) : Bool :=
  match flow with
  | .atom _ _ => false
  | .composite _ _ children _ _ => p ∈ compositePortsAll children

/-- The parameter part of the constructor of `AudioSignalFlow` (`audio_signal_flow.cpp:62-102`): the result is the state
of the flow or the exception thrown. The audio part of the constructor is in `Verif/Flow`, `Verif/Layout` and others.
`env.top` must say which ports belong to `flow` itself. -/
def construct {α : Type} (env : Env α) (flow : Comp) : Outcome (State α) :=
  if !checkParam env.cmp flow true then .throw .runtimeError
  else
    let f := fillTree env.cmp flow
    if !f.2 then .throw .runtimeError
    else match Placeholder.resolveParam (isPlaceholder flow) f.1 with
      | .ub => .ub
      | .throw e => .throw e
      | .ok flat =>
        match flow with
        | .atom _ own => initialiseAtomic env (own.map PPort.id) ⟨[], [], []⟩
        | .composite _ _ _ _ _ =>
          match initialise env flat with
          | .ub => .ub
          | .throw e => .throw e
          | .ok (st, ok) => if ok then .ok st else .throw .runtimeError

end Visr.ParamFlow
