import Verif.Outcome
import Verif.Efl.Aligned
import Verif.Schedule.Model
import Mathlib.Data.List.Dedup

/-!
# Assignment of audio buffers to ports

Models `AudioSignalFlow::initialiseAudioConnections` (`src/librrl/audio_signal_flow.cpp:720-1014`, with
`WORKAROUND_CYCLIC_DEPENDENCIES` defined, line 55), the helpers `contiguousRange` and `sendChannels`, the parts of
`impl::AudioPortBaseImplementation` that locate a channel in memory, and the inserted copy components
`SignalRoutingInternal` (`src/librrl/signal_routing_internal.cpp`).

The input are the connections after placeholder resolution. Ports are identified by their addresses. The ports `in` and
`out` of a copy component inserted for the receive port `r` are `routeIn r` and `routeOut r` (at most one such component
is created for each receive port).
-/

namespace Visr.Layout
open Visr

/-- A port of the flow, or a port of an inserted copy component. -/
inductive PortRef where
  | orig (addr : Nat)
  | routeIn (recv : Nat)
  | routeOut (recv : Nat)
  deriving DecidableEq

/-- `AudioChannel`: port and channel index. -/
abbrev Chan := PortRef × Nat

/-- A connection between channels of ports of the flow: ((sender, channel), (receiver, channel)). -/
abbrev Conn := (Nat × Nat) × (Nat × Nat)

/-- The flow as far as buffer assignment needs it: port widths, sample types of ports, sizes of the sample types
(`AudioSampleType::typeSize`), the period, the alignment `cVectorAlignmentBytes`, the sample types supported by
`createSignalRoutingComponent` (`signal_routing_internal.cpp:72-93`), and the order of the ports that results from
`std::sort` by address and `std::partition` (`audio_signal_flow.cpp:758-761`, `:773-776`). -/
structure Env where
  width : Nat → Nat
  stype : Nat → Nat
  size : Nat → Nat
  period : Nat
  align : Nat
  routable : Nat → Bool
  order : List Nat → List Nat

/-- A connection between ports of the flow as a connection of the resulting flow. -/
def lift (k : Conn) : Chan × Chan := ((.orig k.1.1, k.1.2), (.orig k.2.1, k.2.2))

/-- An inserted copy component: the receive port it was created for, the width of its input, and for each output channel
the input channel it copies. -/
structure Routing where
  recv : Nat
  inWidth : Nat
  indices : List Nat
  stype : Nat

/-- `PortOffsetLookup`: a `std::map` with port widths, in the order of insertion. -/
abbrev Offsets := List (PortRef × Nat)

/-- `std::map::find`. -/
def find (t : Offsets) (p : PortRef) : Option Nat := (t.find? fun e => e.1 = p).map Prod.snd

/-- `std::map::insert`: an existing entry is kept. -/
def insert (t : Offsets) (p : PortRef) (o : Nat) : Offsets :=
  match find t p with
  | some _ => t
  | none => t ++ [(p, o)]

/-- The variables of the first loop over the sample types. -/
structure St where
  send : Offsets
  recv : Offsets
  next : Nat
  conns : List (Chan × Chan)
  routings : List Routing

/-- The loop of `sendChannels` that fills `sendRange` (`audio_signal_flow.cpp:700-714`). -/
def fillRange (w : Nat) : List Conn → List (Option (Nat × Nat)) → Outcome (List (Option (Nat × Nat)))
  | [], v => .ok v
  | k :: ks, v =>
    if w ≤ k.2.2 then .throw .logicError
    else match v[k.2.2]? with
      | some (some _) => .throw .logicError
      | _ => fillRange w ks (v.set k.2.2 (some k.1))

/-- `sendChannels()` (`audio_signal_flow.cpp:688-716`). `none` is `AudioChannel( nullptr, 0 )`. -/
def sendChannels (w : Nat) (r : Nat) (conns : List Conn) : Outcome (List (Option (Nat × Nat))) :=
  let receiving := conns.filter fun k => k.2.1 = r
  if receiving.length ≠ w then .throw .logicError
  else fillRange w receiving (List.replicate w none)

/-- Position of a send channel: offset of the port plus channel index. -/
def position (t : Offsets) : Option (Nat × Nat) → Option Nat
  | none => none
  | some c => (find t (.orig c.1)).map fun o => o + c.2

/-- `contiguousRange()` (`audio_signal_flow.cpp:625-635`). `at()` throws `std::out_of_range`. -/
def contiguousRange (t : Offsets) : List (Option (Nat × Nat)) → Outcome Bool
  | x :: y :: rest =>
    match position t x, position t y with
    | some a, some b => if a + 1 ≠ b then .ok false else contiguousRange t (y :: rest)
    | _, _ => .throw .outOfRange
  | _ => .ok true

/-- The list of send indices (`audio_signal_flow.cpp:803-817`). -/
def sendIndices (t : Offsets) : List (Option (Nat × Nat)) → Outcome (List Nat)
  | [] => .ok []
  | x :: xs =>
    match position t x with
    | none => .throw .logicError
    | some a =>
      match sendIndices t xs with
      | .ok l => .ok (a :: l)
      | .throw e => .throw e
      | .ub => .ub

/-- Width of a send port. -/
def sendWidth (env : Env) : PortRef → Nat
  | .orig a => env.width a
  | .routeOut r => env.width r
  | .routeIn _ => 0

/-- The search for the port that contains a channel position (`audio_signal_flow.cpp:850-855`). -/
def findPort (env : Env) (t : Offsets) (c : Nat) : Option (PortRef × Nat) :=
  t.find? fun e => e.2 ≤ c ∧ c < e.2 + sendWidth env e.1

/-- The loop that connects the used inputs of a copy component (`audio_signal_flow.cpp:847-868`). -/
def routeConns (env : Env) (t : Offsets) (r lo : Nat) (idx : List Nat) : List Nat → Outcome (List (Chan × Chan))
  | [] => .ok []
  | i :: is =>
    match findPort env t (lo + i) with
    | none => .throw .logicError
    | some e =>
      match routeConns env t r lo idx is with
      | .ok l => .ok (if i ∈ idx then ((e.1, lo + i - e.2), (.routeIn r, i)) :: l else l)
      | .throw e => .throw e
      | .ub => .ub

/-- The body of the loop over the receive ports (`audio_signal_flow.cpp:777-900`) for the sample type `ty`. -/
def recvStep (env : Env) (ty : Nat) (typed : List Conn) (st : St) (r : Nat) : Outcome St :=
  if env.width r = 0 then .ok st
  else
    let loc := typed.filter fun k => k.2.1 = r
    match sendChannels (env.width r) r loc with
    | .throw e => .throw e
    | .ub => .ub
    | .ok sends =>
      match contiguousRange st.send sends with
      | .throw e => .throw e
      | .ub => .ub
      | .ok true =>
        match sends with
        | [] => .ub
        | x :: _ =>
          match position st.send x with
          | none => .throw .logicError
          | some o => .ok { st with recv := insert st.recv (.orig r) o, conns := st.conns ++ loc.map lift }
      | .ok false =>
        match sendIndices st.send sends with
        | .throw e => .throw e
        | .ub => .ub
        | .ok abs =>
          let lo := abs.foldl min (abs.headD 0)
          let idx := abs.map fun a => a - lo
          let inW := idx.foldl max 0 + 1
          if ¬ env.routable ty then .throw .invalidArgument
          else
            match routeConns env st.send r lo idx (List.range inW) with
            | .throw e => .throw e
            | .ub => .ub
            | .ok cs => .ok
                { send := insert st.send (.routeOut r) st.next
                  recv := insert (insert st.recv (.routeIn r) lo) (.orig r) st.next
                  next := st.next + env.width r
                  conns := st.conns ++ cs ++ (List.range (env.width r)).map fun i => ((.routeOut r, i), (.orig r, i))
                  routings := st.routings ++ [⟨r, inW, idx, ty⟩] }

/-- The loop over the receive ports. -/
def recvLoop (env : Env) (ty : Nat) (typed : List Conn) : List Nat → St → Outcome St
  | [], st => .ok st
  | r :: rs, st =>
    match recvStep env ty typed st r with
    | .ok st' => recvLoop env ty typed rs st'
    | .throw e => .throw e
    | .ub => .ub

/-- The loop that assigns offsets to the send ports (`audio_signal_flow.cpp:763-767`). -/
def sendLoop (env : Env) : List Nat → Offsets × Nat → Offsets × Nat
  | [], a => a
  | s :: ss, a => sendLoop env ss (insert a.1 (.orig s) a.2, a.2 + env.width s)

/-- The body of the first loop over the sample types for a composite flow (`audio_signal_flow.cpp:750-901`). -/
def typeStep (env : Env) (conns : List Conn) (done : List (Chan × Chan)) (ty : Nat) : Outcome St :=
  let typed := conns.filter fun k => env.stype k.1.1 = ty
  let s := sendLoop env (env.order (typed.map fun k => k.1.1).dedup) ([], 0)
  recvLoop env ty typed (env.order (typed.map fun k => k.2.1).dedup) ⟨s.1, [], s.2, done, []⟩

/-- The first loop over the sample types: the state for each type. `tmpConnections` is passed on. -/
def typeLoop (env : Env) (conns : List Conn) : List Nat → List (Chan × Chan) →
    Outcome (List (Nat × St) × List (Chan × Chan))
  | [], done => .ok ([], done)
  | ty :: tys, done =>
    match typeStep env conns done ty with
    | .throw e => .throw e
    | .ub => .ub
    | .ok st =>
      match typeLoop env conns tys st.conns with
      | .ok r => .ok ((ty, st) :: r.1, r.2)
      | .throw e => .throw e
      | .ub => .ub

/-- Size of one channel buffer in bytes (`efl::nextAlignedSize`). -/
def chanSize (env : Env) (ty : Nat) : Nat := Efl.nextAlignedSize (env.period * env.size ty) env.align

/-- `totalAudioPoolSize` (`audio_signal_flow.cpp:915-916`). -/
def totalSize (env : Env) (l : List (Nat × St)) : Nat := (l.map fun e => e.2.next * chanSize env e.1).sum

/-- Arguments of `setBufferConfig()` for a port (offset from the pool's base pointer, channel stride in samples), and the
size of the port's own sample type (`audio_port_base_implementation.cpp:94-122`). -/
structure Cfg where
  port : PortRef
  base : Nat
  stride : Nat
  size : Nat

/-- Size of the samples of a port; copy components created for the sample type `ty` have that type. -/
def sampleSize (env : Env) (ty : Nat) : PortRef → Nat
  | .orig a => env.size (env.stype a)
  | _ => env.size ty

/-- The second loop over the sample types (`audio_signal_flow.cpp:922-969`): buffer configurations in the order in which
they are set, and the final `poolOffsetBytes`. -/
def assign (env : Env) : List (Nat × St) → Nat → Outcome (List Cfg × Nat)
  | [], off => .ok ([], off)
  | (ty, st) :: rest, off =>
    let cs := chanSize env ty
    if cs % env.size ty ≠ 0 then .throw .logicError
    else
      let cfg := fun (e : PortRef × Nat) => Cfg.mk e.1 (off + cs * e.2) (cs / env.size ty) (sampleSize env ty e.1)
      match assign env rest (off + (st.send.map fun e => sendWidth env e.1).sum * cs) with
      | .ok r => .ok (st.send.map cfg ++ st.recv.map cfg ++ r.1, r.2)
      | .throw e => .throw e
      | .ub => .ub

/-- The result: buffer configurations, size of the pool, final connections, copy components. -/
structure Result where
  cfgs : List Cfg
  pool : Nat
  conns : List (Chan × Chan)
  routings : List Routing

/-- The buffer configuration of a port: the one set last. -/
def Result.cfg (l : Result) (p : PortRef) : Option Cfg := l.cfgs.reverse.find? fun c => c.port = p

/-- Start of a channel's samples, in bytes from the start of the pool: the base pointer plus `channelStrideBytes()` times
the channel index (`libvisr/audio_input.hpp`, `audio_port_base_implementation.cpp:99-102`). -/
def Result.addr (l : Result) (c : Chan) : Option Nat := (l.cfg c.1).map fun g => g.base + c.2 * (g.stride * g.size)

/-- `initialiseAudioConnections()` for a composite flow. `usedSampleTypes` is a `std::set`. -/
def initialise (env : Env) (conns : List Conn) : Outcome Result :=
  let types := Schedule.toSet (conns.map fun k => env.stype k.1.1)
  match typeLoop env conns types [] with
  | .throw e => .throw e
  | .ub => .ub
  | .ok (sts, cs) =>
    match assign env sts 0 with
    | .throw e => .throw e
    | .ub => .ub
    | .ok (cfgs, off) =>
      if off ≠ totalSize env sts then .throw .logicError
      else .ok ⟨cfgs, off, cs, sts.flatMap fun e => e.2.routings⟩

/-- The tables of an atomic top-level flow for one sample type (`audio_signal_flow.cpp:902-911`): every port is entered for
every used sample type. -/
def atomicSt (env : Env) (ports : List Nat) : St :=
  let s := sendLoop env ports ([], 0)
  ⟨s.1, [], s.2, [], []⟩

/-- `initialiseAudioConnections()` for an atomic top-level flow with the given ports (`audio_signal_flow.cpp:730-736`,
`:902-969`). -/
def initialiseAtomic (env : Env) (ports : List Nat) : Outcome Result :=
  let sts := (Schedule.toSet (ports.map env.stype)).map fun ty => (ty, atomicSt env ports)
  match assign env sts 0 with
  | .throw e => .throw e
  | .ub => .ub
  | .ok (cfgs, off) =>
    if off ≠ totalSize env sts then .throw .logicError else .ok ⟨cfgs, off, [], []⟩

/-- One call to `vectorCopy()` of a copy component (`signal_routing_internal.cpp:52-66`) succeeds if both pointers pass the
alignment check; otherwise `process()` throws. The pool starts at address `base`. The alignment is passed as
`cVectorAlignmentSamples = 16` elements for every sample type (`constants.hpp:26-31`). -/
def copyAligned (env : Env) (base : Nat) (ty src dst : Nat) : Bool :=
  Efl.checkAlignment (BitVec.ofNat 64 (env.size ty)) (BitVec.ofNat 64 (base + src)) 16#64 &&
  Efl.checkAlignment (BitVec.ofNat 64 (env.size ty)) (BitVec.ofNat 64 (base + dst)) 16#64

end Visr.Layout
