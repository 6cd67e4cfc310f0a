import Verif.Outcome

/-!
# Registration of components, ports and connections

Models `impl::ComponentImplementation`, `impl::CompositeComponentImplementation` and `impl::PortBaseImplementation` with
its two derived classes (`src/libvisr/impl`): how components, ports and connections are created, destroyed and found by
name.

Objects are identified by a number that is given once (so an object is different from a later one at the same address).
A pointer to a destroyed object is a number without entry in the tables; following such a pointer is `ub`. Names are
C strings, i.e. character lists.
-/

namespace Visr.Tree
open Visr

/-- A name. -/
abbrev Name := List Char

/-- Audio and parameter ports. -/
inductive Kind where
  | audio
  | param
  deriving DecidableEq

/-- An audio connection (`impl::AudioConnection`). -/
structure AConn where
  sender : Nat
  sendIndices : List Nat
  receiver : Nat
  receiveIndices : List Nat
  deriving DecidableEq

/-- A component (`component_implementation.hpp`, `composite_component_implementation.hpp`): `mName`, `isComposite()`,
`mParent`, `mComponents`, `mAudioPorts`/`mParameterPorts`, `mAudioConnections` and `mParameterConnections` (multisets, in
the order of insertion). -/
structure Comp where
  name : Name
  composite : Bool
  parent : Option Nat
  children : List Nat
  ports : Kind → List Nat
  aconns : List AConn
  pconns : List (Nat × Nat)

/-- A port (`port_base_implementation.hpp`, `audio_port_base_implementation.hpp`): `mName`, `mParentComponent`, kind and
`mWidth` (0 for parameter ports). -/
structure Port where
  name : Name
  comp : Option Nat
  kind : Kind
  width : Nat

/-- All existing objects, and the number of the next object. -/
structure State where
  comps : Nat → Option Comp
  ports : Nat → Option Port
  next : Nat

/-- No objects. -/
def State.empty : State := ⟨fun _ => none, fun _ => none, 0⟩

/-- Replace the entry of a component. -/
def State.setComp (s : State) (c : Nat) (k : Option Comp) : State :=
  { s with comps := fun x => if x = c then k else s.comps x }

/-- Replace the entry of a port. -/
def State.setPort (s : State) (p : Nat) (q : Option Port) : State :=
  { s with ports := fun x => if x = p then q else s.ports x }

/-- Name of a component. -/
def State.compName (s : State) (c : Nat) : Option Name := (s.comps c).map fun k => k.name

/-- Name of a port. -/
def State.portName (s : State) (p : Nat) : Option Name := (s.ports p).map fun q => q.name

/-- `findComponentEntry()` (`composite_component_implementation.cpp:79-94`). The pointers in the list are valid (shown). -/
def findComponentEntry (s : State) (q : Comp) (nm : Name) : Option Nat := q.children.find? fun c => s.compName c = some nm

/-- `findAudioPortEntry()`, `findParameterPortEntry()` (`component_implementation.cpp:161-187`, `:255-263`). -/
def findPortEntry (s : State) (k : Comp) (kind : Kind) (nm : Name) : Option Nat :=
  (k.ports kind).find? fun p => s.portName p = some nm

/-- What the caller of an operation sees: normal return (with the new object, if one is created) or an exception. -/
inductive Res where
  | done
  | created (id : Nat)
  | threw (e : Exn)
  deriving DecidableEq

/-- A component without children, ports and connections. -/
def Comp.fresh (nm : Name) (composite : Bool) (parent : Option Nat) : Comp :=
  ⟨nm, composite, parent, [], fun _ => [], [], []⟩

/-- Construction of a component (`component_implementation.cpp:27-44`) with `registerChildComponent()`
(`composite_component_implementation.cpp:46-55`). The parent is a `CompositeComponent *`. -/
def create (s : State) (nm : Name) (composite : Bool) : Option Nat → Outcome (State × Res)
  | none => .ok ({ s.setComp s.next (some (.fresh nm composite none)) with next := s.next + 1 }, .created s.next)
  | some p =>
    match s.comps p with
    | none => .ub
    | some q =>
      if ¬ q.composite then .ub
      else if (findComponentEntry s q nm).isSome then .ok (s, .threw .invalidArgument)
      else .ok ({ (s.setComp p (some { q with children := q.children ++ [s.next] })).setComp s.next
          (some (.fresh nm composite (some p))) with next := s.next + 1 }, .created s.next)

/-- The loop of `~CompositeComponentImplementation()` (`composite_component_implementation.cpp:34-40`). -/
def orphan (s : State) (k : Comp) : State :=
  if k.composite then
    { s with comps := fun x => if x ∈ k.children then (s.comps x).map fun r => { r with parent := none } else s.comps x }
  else s

/-- Destruction of a component: `~CompositeComponentImplementation()`, `~ComponentImplementation()`
(`component_implementation.cpp:46-52`) and `unregisterChildComponent()`
(`composite_component_implementation.cpp:57-68`), which removes the first child with the name of the component. -/
def destroy (s : State) (c : Nat) : Outcome (State × Res) :=
  match s.comps c with
  | none => .ub
  | some k =>
    let s1 := orphan s k
    match k.parent with
    | none => .ok (s1.setComp c none, .done)
    | some p =>
      match s1.comps p with
      | none => .ub
      | some q =>
        .ok ((s1.setComp p (some { q with children := q.children.eraseP fun x => s1.compName x = some k.name })).setComp c
          none, .done)

/-- Set one of the port lists of a component. -/
def Comp.setPorts (k : Comp) (kind : Kind) (l : List Nat) : Comp :=
  { k with ports := fun x => if x = kind then l else k.ports x }

/-- Construction of a port (`audio_port_base_implementation.cpp:21-36`, `parameter_port_base_implementation.cpp:20-52`)
with `registerAudioPort()`/`registerParameterPort()` (`component_implementation.cpp:151-160`, `:225-233`). A parameter port
without component dereferences a null pointer. -/
def createPort (s : State) (kind : Kind) (nm : Name) (width : Nat) : Option Nat → Outcome (State × Res)
  | none =>
    if kind = .param then .ub
    else .ok ({ s.setPort s.next (some ⟨nm, none, kind, width⟩) with next := s.next + 1 }, .created s.next)
  | some c =>
    match s.comps c with
    | none => .ub
    | some k =>
      if (findPortEntry s k kind nm).isSome then .ok (s, .threw .invalidArgument)
      else .ok ({ (s.setComp c (some (k.setPorts kind (k.ports kind ++ [s.next])))).setPort s.next
          (some ⟨nm, some c, kind, width⟩) with next := s.next + 1 }, .created s.next)

/-- Destruction of a port (`audio_port_base_implementation.cpp:38-44`, `parameter_port_base_implementation.cpp:54-60`)
with `unregisterAudioPort()`/`unregisterParameterPort()` (`component_implementation.cpp:136-149`, `:235-249`). -/
def destroyPort (s : State) (p : Nat) : Outcome (State × Res) :=
  match s.ports p with
  | none => .ub
  | some q =>
    match q.comp with
    | none => .ok (s.setPort p none, .done)
    | some c =>
      match s.comps c with
      | none => .ub
      | some k => .ok ((s.setComp c (some (k.setPorts q.kind ((k.ports q.kind).erase p)))).setPort p none, .done)

/-- `findComponent()` of the composite `p` (`composite_component_implementation.cpp:97-115`). `none` as an argument is the
null pointer. -/
def findComponent (s : State) (p : Nat) (q : Comp) : Option Name → Option Nat
  | none => some p
  | some nm => if nm = [] ∨ nm = ['t', 'h', 'i', 's'] then some p else findComponentEntry s q nm

/-- `findAudioPort()`, `findParameterPort()` of a composite (`composite_component_implementation.cpp:117-137`). -/
def findPort (s : State) (p : Nat) (q : Comp) (kind : Kind) (comp : Option Name) (port : Name) : Option Nat :=
  match findComponent s p q comp with
  | none => none
  | some c =>
    match s.comps c with
    | none => none
    | some k => findPortEntry s k kind port

/-- `checkPortParent()` (`composite_component_implementation.cpp:149-163`). -/
def checkPortParent (s : State) (p : Nat) (port : Nat) : Outcome Unit :=
  match s.ports port with
  | none => .ub
  | some q =>
    match q.comp with
    | none => .throw .logicError
    | some c =>
      if c = p then .ok ()
      else match s.comps c with
        | none => .ub
        | some k => if k.parent = some p then .ok () else .throw .invalidArgument

/-- Width of a port. -/
def State.width (s : State) (p : Nat) : Nat :=
  match s.ports p with
  | some q => q.width
  | none => 0

/-- Turn an exception into a result of an operation that leaves the state as it is. -/
def thrown (s : State) (e : Exn) : Outcome (State × Res) := .ok (s, .threw e)

/-- `audioConnection()` with ports and index lists (`composite_component_implementation.cpp:258-291`). `p` is the
composite. -/
def audioConnection (s : State) (p send : Nat) (sendIdx : List Nat) (recv : Nat) (recvIdx : List Nat) :
    Outcome (State × Res) :=
  match s.comps p with
  | none => .ub
  | some q =>
    match checkPortParent s p send with
    | .ub => .ub
    | .throw e => thrown s e
    | .ok _ =>
      match checkPortParent s p recv with
      | .ub => .ub
      | .throw e => thrown s e
      | .ok _ =>
        if sendIdx.length ≠ recvIdx.length then thrown s .invalidArgument
        else if sendIdx.length = 0 then .ok (s, .done)
        else if s.width send ≤ sendIdx.foldl max 0 then thrown s .invalidArgument
        else if s.width recv ≤ recvIdx.foldl max 0 then thrown s .invalidArgument
        else .ok (s.setComp p (some { q with aconns := q.aconns ++ [⟨send, sendIdx, recv, recvIdx⟩] }), .done)

/-- `parent().name()` of a port, used for a message. -/
def parentName (s : State) (port : Nat) : Outcome Name :=
  match s.ports port with
  | none => .ub
  | some q =>
    match q.comp with
    | none => .throw .logicError
    | some c =>
      match s.comps c with
      | none => .ub
      | some k => .ok k.name

/-- `audioConnection()` with ports only (`composite_component_implementation.cpp:293-309`). -/
def audioConnectionAll (s : State) (p send recv : Nat) : Outcome (State × Res) :=
  if s.width send ≠ s.width recv then
    match parentName s send with
    | .ub => .ub
    | .throw e => thrown s e
    | .ok _ =>
      match parentName s recv with
      | .ub => .ub
      | .throw e => thrown s e
      | .ok _ => thrown s .invalidArgument
  else audioConnection s p send (List.range (s.width send)) recv (List.range (s.width send))

/-- `audioConnection()` with names (`composite_component_implementation.cpp:201-223`): the index lists are not looked at.
If a port is not found the names are printed; printing a null pointer is undefined. -/
def audioConnectionNames (s : State) (p : Nat) (sc : Option Name) (sp : Name) (sendIdx : List Nat) (rc : Option Name)
    (rp : Name) (recvIdx : List Nat) : Outcome (State × Res) :=
  match s.comps p with
  | none => .ub
  | some q =>
    match findPort s p q .audio sc sp with
    | none => if sc.isNone then .ub else thrown s .invalidArgument
    | some send =>
      match findPort s p q .audio rc rp with
      | none => if rc.isNone then .ub else thrown s .invalidArgument
      | some recv => .ok (s.setComp p (some { q with aconns := q.aconns ++ [⟨send, sendIdx, recv, recvIdx⟩] }), .done)

/-- `registerParameterConnection()` with ports (`composite_component_implementation.cpp:189-199`). -/
def paramConnection (s : State) (p send recv : Nat) : Outcome (State × Res) :=
  match s.comps p with
  | none => .ub
  | some q =>
    match checkPortParent s p send with
    | .ub => .ub
    | .throw e => thrown s e
    | .ok _ =>
      match checkPortParent s p recv with
      | .ub => .ub
      | .throw e => thrown s e
      | .ok _ => .ok (s.setComp p (some { q with pconns := q.pconns ++ [(send, recv)] }), .done)

/-- `registerParameterConnection()` with names (`composite_component_implementation.cpp:167-187`). -/
def paramConnectionNames (s : State) (p : Nat) (sc : Option Name) (sp : Name) (rc : Option Name) (rp : Name) :
    Outcome (State × Res) :=
  match s.comps p with
  | none => .ub
  | some q =>
    match findPort s p q .param sc sp with
    | none => if sc.isNone then .ub else thrown s .invalidArgument
    | some send =>
      match findPort s p q .param rc rp with
      | none => if rc.isNone then .ub else thrown s .invalidArgument
      | some recv => .ok (s.setComp p (some { q with pconns := q.pconns ++ [(send, recv)] }), .done)

/-- `fullName()` (`component_implementation.cpp:61-71`) with `cNameSeparator = ":"`. The first argument bounds the depth of
the recursion; `none` for a dangling pointer or when the bound is exceeded (both shown not to happen). -/
def fullNameRec (s : State) : Nat → Nat → Option Name
  | 0, _ => none
  | n + 1, c =>
    match s.comps c with
    | none => none
    | some k =>
      match k.parent with
      | none => some k.name
      | some p =>
        match s.comps p with
        | none => none
        | some q =>
          match q.parent with
          | none => some k.name
          | some _ => (fullNameRec s n p).map fun f => f ++ ':' :: k.name

/-- `fullName()`. -/
def State.fullName (s : State) (c : Nat) : Option Name := fullNameRec s s.next c

/-- The operations on a set of components. -/
inductive Op where
  | create (nm : Name) (composite : Bool) (parent : Option Nat)
  | destroy (c : Nat)
  | createPort (kind : Kind) (nm : Name) (width : Nat) (comp : Option Nat)
  | destroyPort (p : Nat)
  | audio (p send : Nat) (sendIdx : List Nat) (recv : Nat) (recvIdx : List Nat)
  | audioAll (p send recv : Nat)
  | audioNames (p : Nat) (sc : Option Name) (sp : Name) (sendIdx : List Nat) (rc : Option Name) (rp : Name)
      (recvIdx : List Nat)
  | param (p send recv : Nat)
  | paramNames (p : Nat) (sc : Option Name) (sp : Name) (rc : Option Name) (rp : Name)

/-- One operation. -/
def step (s : State) : Op → Outcome (State × Res)
  | .create nm composite parent => create s nm composite parent
  | .destroy c => destroy s c
  | .createPort kind nm width comp => createPort s kind nm width comp
  | .destroyPort p => destroyPort s p
  | .audio p send si recv ri => audioConnection s p send si recv ri
  | .audioAll p send recv => audioConnectionAll s p send recv
  | .audioNames p sc sp si rc rp ri => audioConnectionNames s p sc sp si rc rp ri
  | .param p send recv => paramConnection s p send recv
  | .paramNames p sc sp rc rp => paramConnectionNames s p sc sp rc rp

/-- A history of operations; it ends at undefined behaviour. Exceptions are caught by the caller. -/
def history : State → List Op → Outcome State
  | s, [] => .ok s
  | s, o :: os =>
    match step s o with
    | .ok (s', _) => history s' os
    | .throw e => .throw e
    | .ub => .ub

/-- States that can be reached from a program's start. -/
def Reachable (s : State) : Prop := ∃ ops, history .empty ops = .ok s

end Visr.Tree
