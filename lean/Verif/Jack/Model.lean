import Verif.Outcome
import Verif.Run
import Verif.PTree
import Verif.ChannelList.Model

/-!
# The JACK interface

Model of `src/libaudiointerfaces/jack_interface.{hpp,cpp}`.

Modelled: the names and connections of the ports computed from the configuration, the
constructor's checks, `start()`, `stop()`, registration and connection of the ports, the
registered function, and the callback of the server.  The JACK server is represented by its
documented behaviour: its ports and connections are part of the state, refusals of the server
are inputs.  Not modelled: the JSON syntax, the texts of messages, and operations of the user
while the callback is executing (the operations are executed one after another).
-/

namespace Visr.Jack
open Visr

/-- Texts and names. -/
abbrev Name := List Char

/-- An `externalport` node (`jack_interface.cpp:786-791`). -/
structure Ext where
  client : Option Name := none
  portname : Option Name := none
  indices : Option Name := none
  deriving DecidableEq

/-- One element of a `port` node (`jack_interface.cpp:757-759`, `:786`). -/
structure PortEntry where
  basename : Option Name := none
  indices : Option Name := none
  ext : Option Ext := none
  deriving DecidableEq

/-- A `capture` or `playback` node; `ports = none` if there is no `port` node
(`jack_interface.cpp:733-756`). -/
structure Dir where
  autoconnect : Entry Bool := .missing
  ports : Option (List PortEntry) := none

/-- The configuration string after JSON parsing (`jack_interface.cpp:291-334`). -/
structure Options where
  clientname : Option Name := none
  autoconnect : Entry Bool := .missing
  capture : Option Dir := none
  playback : Option Dir := none

/-- The local variables of `loadPortConfig` (`jack_interface.cpp:722-742`) that live through
the loop over the ports: the names, the two write positions, and the last values read from
an `externalport` node. -/
structure Load where
  names : List Name
  ext : List Name
  idx : Nat
  extIdx : Nat
  client : Option Name
  base : Option Name
  extIndices : Option Name

/-- `v[i] = a` on a `std::vector`: without a bounds check. -/
def put {α : Type} (v : List α) (i : Nat) (a : α) : Outcome (List α) :=
  if i < v.length then .ok (v.set i a) else .ub

/-- The loops writing consecutive names (`jack_interface.cpp:768-773`, `:779-784`,
`:807-813`, `:816-821`). -/
def putAll (v : List Name) (i : Nat) : List Name → Outcome (List Name × Nat)
  | [] => .ok (v, i)
  | a :: rest => do
    let v' ← put v i a
    putAll v' (i + 1) rest

/-- A base name followed by a number. -/
def numbered (base : Name) (n : Int) : Name := base ++ ChannelList.printInt n

/-- The port names of one element (`jack_interface.cpp:758-784`). -/
def loadNames (numPorts : Nat) (portType : Name) (e : PortEntry) (s : Load) : Outcome Load :=
  match e.indices, e.basename with
  | some text, some base => do
    let l ← ChannelList.parse text
    if l.length > numPorts then .throw .invalidArgument
    else do
      let r ← putAll s.names s.idx (l.map (numbered base))
      .ok { s with names := r.1, idx := r.2 }
  | _, b => do
    let base := b.getD portType
    let r ← putAll s.names s.idx ((List.range numPorts).map fun (k : Nat) => numbered base k)
    .ok { s with names := r.1, idx := r.2 }

/-- The values read from an `externalport` node (`jack_interface.cpp:787-799`). -/
def readExt (portType : Name) (e : PortEntry) (s : Load) : Load :=
  let s1 := match e.ext with
    | some x => { s with client := x.client, base := x.portname, extIndices := x.indices }
    | none => s
  { s1 with
    client := some (s1.client.getD "system".toList)
    base := some (s1.base.getD (if portType = "in_".toList then "capture_".toList else "playback_".toList)) }

/-- The full name of a port of another client. -/
def external (client base : Name) (n : Int) : Name := client ++ ":".toList ++ numbered base n

/-- The external port names of one element (`jack_interface.cpp:786-823`). -/
def loadExt (numPorts : Nat) (portType : Name) (e : PortEntry) (s : Load) : Outcome Load :=
  let s1 := readExt portType e s
  let client := s1.client.getD []
  let base := s1.base.getD []
  match s1.extIndices with
  | some text => do
    let l ← ChannelList.parse text
    let r ← putAll s1.ext s1.extIdx (l.map (external client base))
    .ok { s1 with ext := r.1, extIdx := r.2 }
  | none => do
    let r ← putAll s1.ext s1.extIdx ((List.range numPorts).map fun (k : Nat) => external client base (k + 1 : Nat))
    .ok { s1 with ext := r.1, extIdx := r.2 }

/-- One iteration of the loop over the ports (`jack_interface.cpp:757-825`). -/
def loadEntry (numPorts : Nat) (autoConn : Bool) (portType : Name) (s : Load) (e : PortEntry) : Outcome Load := do
  let s1 ← loadNames numPorts portType e s
  if autoConn then loadExt numPorts portType e s1 else .ok s1

/-- The elements of the `port` node: one empty element if there is none
(`jack_interface.cpp:743-756`). -/
def entries (d : Option Dir) : List PortEntry :=
  match d with
  | none => [{}]
  | some d => d.ports.getD [{}]

/-- The automatic connection in one direction (`jack_interface.cpp:733-736`). -/
def autoConnOf (d : Option Dir) (auto : Bool) : Bool :=
  match d with
  | none => auto
  | some d => d.autoconnect.getD auto

/-- `loadPortConfig` (`jack_interface.cpp:715-838`): the port names and the external names.
The parameter `autoConn` is passed by value: its change is not visible to the caller. -/
def loadPortConfig (d : Option Dir) (numPorts : Nat) (auto : Bool) (portType : Name) :
    Outcome (List Name × List Name) := do
  let autoConn := autoConnOf d auto
  let s ← (entries d).foldlM (loadEntry numPorts autoConn portType)
    ⟨List.replicate numPorts [], List.replicate numPorts [], 0, 0, none, none, none⟩
  if s.idx ≠ numPorts then .throw .invalidArgument
  else if autoConn ∧ s.extIdx ≠ numPorts then .throw .invalidArgument
  else .ok (s.names, s.ext)

/-- The data members of `JackInterface::Impl` (`jack_interface.cpp:95-160`) fixed by the
constructor. -/
structure Config where
  clientName : Name
  period : Nat
  capNames : List Name
  playNames : List Name
  inExt : List Name
  outExt : List Name
  auto : Bool
  deriving DecidableEq

/-- The check of the port names (`jack_interface.cpp:192-201`).  `mCapturePortNames` has not
been assigned yet: it is empty. -/
def checkNames (play : List Name) : Outcome Unit :=
  let mCapturePortNames : List Name := []
  if (mCapturePortNames ++ play).Nodup then .ok () else .throw .invalidArgument

/-- The constructor up to the opening of the client (`jack_interface.cpp:165-219`); what
follows depends on the server only.  `none`: the text is no JSON. -/
def construct (nCap nPlay period : Nat) : Option Options → Outcome Config
  | none => .throw .invalidArgument
  | some o => do
    let auto := o.autoconnect.getD false
    let client := o.clientname.getD []
    let c ← loadPortConfig o.capture nCap auto "in_".toList
    let p ← loadPortConfig o.playback nPlay auto "out_".toList
    checkNames p.1
    .ok ⟨if client = [] then "VISR".toList else client, period, c.1, p.1, c.2, p.2, auto⟩

/-- A port of the client in the server: handle, short name, and whether it is an input. -/
structure Port where
  handle : Nat
  name : Name
  isInput : Bool
  deriving DecidableEq

/-- The JACK server as seen by one client: the ports of the client, the next handle, the
connections between ports (by full names), whether the client is active, and the full names of
the output ports (`sources`) and input ports (`sinks`) of other clients. -/
structure Server where
  ports : List Port
  next : Nat
  conns : List (Name × Name)
  active : Bool
  sources : List Name
  sinks : List Name
  deriving DecidableEq

/-- The interface and the server. -/
structure State (F U σ : Type) where
  srv : Server
  initialised : Bool
  capPorts : List (Option Nat)
  playPorts : List (Option Nat)
  callback : Option (F × U)
  world : σ

/-- `jack_port_register`: fails if the server refuses or the client has a port of this name. -/
def register (srv : Server) (accept : Bool) (name : Name) (isInput : Bool) : Server × Option Nat :=
  if accept = true ∧ name ∉ srv.ports.map (·.name) then
    ({ srv with ports := srv.ports ++ [⟨srv.next, name, isInput⟩], next := srv.next + 1 }, some srv.next)
  else (srv, none)

/-- `name.substr( name.find( ":" ) + 1 )` (`jack_interface.cpp:343`). -/
def shortName (n : Name) : Name := if ':' ∈ n then n.drop (n.idxOf ':' + 1) else n

/-- The full name of a port of the client. -/
def fullName (client n : Name) : Name := client ++ ":".toList ++ n

/-- One loop of `registerPorts` (`jack_interface.cpp:338-356`, `:357-374`): the handles are
stored in the array from position `k`; `false`: a port was refused. -/
def registerLoop (accept : Nat → Bool) (isInput : Bool) :
    List Name → Nat → Server → List (Option Nat) → Server × List (Option Nat) × Bool
  | [], _, srv, hs => (srv, hs, true)
  | n :: rest, k, srv, hs =>
    match register srv (accept k) (shortName n) isInput with
    | (srv', none) => (srv', hs, false)
    | (srv', some h) => registerLoop accept isInput rest (k + 1) srv' (hs.set k (some h))

/-- `jack_port_disconnect`: all connections of a port are removed. -/
def disconnect (client : Name) (srv : Server) (h : Option Nat) : Server :=
  match srv.ports.find? (fun p => some p.handle = h) with
  | none => srv
  | some p =>
    { srv with conns := srv.conns.filter fun c =>
        c.1 ≠ fullName client p.name ∧ c.2 ≠ fullName client p.name }

/-- `jack_port_unregister`: the port and its connections are removed. -/
def unregister (client : Name) (srv : Server) (h : Option Nat) : Server :=
  let s := disconnect client srv h
  { s with ports := s.ports.filter fun p => some p.handle ≠ h }

/-- One loop of `unregisterPorts` (`jack_interface.cpp:382-394`, `:395-407`). -/
def unregisterLoop (client : Name) (srv : Server) (hs : List (Option Nat)) : Server :=
  hs.foldl (fun s h => if h = none then s else unregister client s h) srv

/-- `jack_connect`: the source must be an existing output port and the destination an existing
input port.  (A connection made twice is listed twice.) -/
def connect (client : Name) (srv : Server) (c : Name × Name) : Server :=
  if c.1 ∈ srv.sources ++ (srv.ports.filter fun p => !p.isInput).map (fun p => fullName client p.name) ∧
      c.2 ∈ srv.sinks ++ (srv.ports.filter fun p => p.isInput).map (fun p => fullName client p.name) then
    { srv with conns := srv.conns ++ [c] }
  else srv

variable {F U σ : Type}

/-- `unregisterPorts` (`jack_interface.cpp:380-408`). -/
def unregisterPorts (cfg : Config) (s : State F U σ) : State F U σ :=
  { s with
    srv := unregisterLoop cfg.clientName (unregisterLoop cfg.clientName s.srv s.capPorts) s.playPorts
    capPorts := s.capPorts.map fun _ => none
    playPorts := s.playPorts.map fun _ => none }

/-- `registerPorts` (`jack_interface.cpp:336-378`); `false`: it throws.  `accept` are the
answers of the server, first for the inputs, then for the outputs. -/
def registerPorts (cfg : Config) (accept : Bool → Nat → Bool) (s : State F U σ) : State F U σ × Bool :=
  let a := registerLoop (accept true) true cfg.capNames 0 s.srv s.capPorts
  if a.2.2 then
    let b := registerLoop (accept false) false cfg.playNames 0 a.1 s.playPorts
    let s' := { s with srv := b.1, capPorts := a.2.1, playPorts := b.2.1 }
    if b.2.2 then (s', true) else (unregisterPorts cfg s', false)
  else (unregisterPorts cfg { s with srv := a.1, capPorts := a.2.1 }, false)

/-- The requested connections: source and destination (`jack_interface.cpp:412-448`). -/
def wanted (cfg : Config) : List (Name × Name) :=
  if cfg.auto then
    cfg.inExt.zip (cfg.capNames.map (fullName cfg.clientName)) ++
      (cfg.playNames.map (fullName cfg.clientName)).zip cfg.outExt
  else []

/-- `connectPorts` (`jack_interface.cpp:410-449`).  Failures are only reported. -/
def connectPorts (cfg : Config) (s : State F U σ) : State F U σ :=
  { s with srv := (wanted cfg).foldl (connect cfg.clientName) s.srv }

/-- `disconnectPorts` (`jack_interface.cpp:451-490`). -/
def disconnectPorts (cfg : Config) (s : State F U σ) : State F U σ :=
  if cfg.auto then { s with srv := (s.capPorts ++ s.playPorts).foldl (disconnect cfg.clientName) s.srv } else s

/-- The results of the operations. -/
inductive Result (α : Type) where
  | done
  | throws (e : Exn)
  | bool (b : Bool)
  | ret (code : Nat) (out : Option (List (Nat × List α)))
  | escapes (e : Exn)
  | silent
  | ub
  deriving DecidableEq

/-- The ports are released if the interface was started before
(`jack_interface.cpp:494-499`, `:516-518`). -/
def release (cfg : Config) (s : State F U σ) : State F U σ :=
  if s.initialised then { unregisterPorts cfg (disconnectPorts cfg s) with initialised := false } else s

/-- `start` (`jack_interface.cpp:492-508`). -/
def start {α : Type} (cfg : Config) (activateOk : Bool) (accept : Bool → Nat → Bool) (s : State F U σ) :
    State F U σ × Result α :=
  let s1 := release cfg s
  if activateOk then
    let s2 := { s1 with srv := { s1.srv with active := true } }
    let r := registerPorts cfg accept s2
    if r.2 then ({ connectPorts cfg r.1 with initialised := true }, .done) else (r.1, .throws .runtimeError)
  else (s1, .throws .runtimeError)

/-- `stop` (`jack_interface.cpp:510-524`). -/
def stop {α : Type} (cfg : Config) (deactivateOk : Bool) (s : State F U σ) : State F U σ × Result α :=
  if s.initialised then
    let s1 := release cfg s
    if deactivateOk then ({ s1 with srv := { s1.srv with active := false } }, .done)
    else (s1, .throws .runtimeError)
  else (s, .done)

/-- What a processing function does: it reads the captured samples, gives the samples to be
played, changes the state of the program, and may throw. -/
abbrev Proc (α F U σ : Type) := F → U → σ → List (List α) → σ × List (List α) × Option Exn

/-- The ports whose buffers are passed to the function (`setCaptureBuffers`, `setPlaybackBuffers`,
`jack_interface.cpp:625-647`).  A missing port would be a null pointer. -/
def buffers (srv : Server) : List (Option Nat) → Outcome (List Nat)
  | [] => .ok []
  | none :: _ => .ub
  | some h :: rest => do
    if h ∈ srv.ports.map (·.handle) then
      let r ← buffers srv rest
      .ok (h :: r)
    else .ub

/-- `process` and `processCallbackFunction` (`jack_interface.cpp:567-581`, `:603-623`).  `buf`
are the samples in the buffers of the ports; the result contains the samples written to the
buffers of the playback ports. -/
def process {α : Type} (cfg : Config) (proc : Proc α F U σ) (frames : Nat) (buf : Nat → List α) (s : State F U σ) :
    State F U σ × Result α :=
  if cfg.period ≠ frames then (s, .ret 1 none)
  else
    match s.callback, s.initialised with
    | some (f, u), true =>
      match buffers s.srv s.capPorts, buffers s.srv s.playPorts with
      | .ok caps, .ok plays =>
        let r := proc f u s.world (caps.map buf)
        match r.2.2 with
        | none => ({ s with world := r.1 }, .ret 0 (some (plays.zip r.2.1)))
        | some .cString => ({ s with world := r.1 }, .escapes .cString)
        | some _ => ({ s with world := r.1 }, .ret 1 (some (plays.zip r.2.1)))
      | _, _ => (s, .ub)
    | _, _ => (s, .ret 0 none)

/-- The operations on an interface. -/
inductive Op (α F U : Type) where
  | register (f : F) (u : U)
  | unregister (f : F)
  | start (activateOk : Bool) (accept : Bool → Nat → Bool)
  | stop (deactivateOk : Bool)
  | block (frames : Nat) (buf : Nat → List α)

/-- `unregisterCallback` (`jack_interface.cpp:533-545`). -/
def unregisterCallback [DecidableEq F] (f : F) (s : State F U σ) : State F U σ × Bool :=
  match s.callback with
  | none => (s, false)
  | some (g, _) => if g = f then ({ s with callback := none }, true) else (s, false)

/-- One operation.  The server calls back only while the client is active. -/
def step {α : Type} [DecidableEq F] (cfg : Config) (proc : Proc α F U σ) (s : State F U σ) :
    Op α F U → State F U σ × Result α
  | .register f u => ({ s with callback := some (f, u) }, .bool true)
  | .unregister f => let r := unregisterCallback f s; (r.1, .bool r.2)
  | .start a acc => start cfg a acc s
  | .stop a => stop cfg a s
  | .block n buf => if s.srv.active then process cfg proc n buf s else (s, .silent)

/-- The interface after construction (`jack_interface.cpp:165-177`). -/
def State.init (nCap nPlay : Nat) (sources sinks : List Name) (w : σ) : State F U σ :=
  ⟨⟨[], 0, [], false, sources, sinks⟩, false, List.replicate nCap none, List.replicate nPlay none, none, w⟩

end Visr.Jack
