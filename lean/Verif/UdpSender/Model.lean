import Verif.Outcome

/-!
# The UDP sender

Models `src/librcl/udp_sender.cpp`: the audio thread, which calls `process()`, and the network thread, which runs the
completion handler `handleSentData`, as two processes that interleave at single steps. `boost::asio` is modelled by what
it guarantees: a started send operation transmits the bytes its buffer refers to at some later time (or fails), after
which the handler becomes runnable; it runs once per operation, and handlers do not overlap because one thread runs the
service object. An exception that leaves a handler leaves `io_service::run` and the thread function, so that the program
is terminated (`std::terminate`).

The environment decides about success and failure of a transmission; messages that exceed the largest UDP datagram
always fail.
-/

namespace Visr.UdpSender

/-- A datagram or message. -/
abbrev Bytes := List UInt8

/-- `UdpSender::Mode` (`udp_sender.hpp:31-35`). -/
inductive Mode where
  | synchronous
  | asynchronous
  deriving DecidableEq

/-- The largest payload of a UDP datagram (IPv4). -/
def maxDatagram : Nat := 65507

/-- The send operation: none; started but not transmitted; completed with the number of transmitted bytes, or with an
error. -/
inductive Send where
  | none
  | started
  | completed (bytes : Nat)
  | failed
  deriving DecidableEq

/-- Position of the handler: not running; holding the lock (`udp_sender.cpp:217-225`); lock held, front element removed
(`:226-234`). -/
inductive HPc where
  | idle
  | inside (bytes : Nat)
  | popped
  deriving DecidableEq

/-- Position of the audio thread: outside of `process()`; in the loop of the synchronous mode (`udp_sender.cpp:169`) or
between `send_to` and `pop` (`:178`); before taking the lock (`:187`); in the loop of the asynchronous mode (`:189`) or
between `push_back` and `pop` (`:193`), with the value of `transmissionPending`. -/
inductive APc where
  | idle
  | syncLoop
  | syncSent
  | want
  | loop (pending : Bool)
  | copied (pending : Bool)
  deriving DecidableEq

/-- The holder of `mMutex`. -/
inductive Thread where
  | handler
  | audio
  deriving DecidableEq

/-- The state: mode, queue of the message input, `mInternalMessageBuffer`, the send operation, the two positions,
`mMutex`, and the transmitted datagrams. `bad` records undefined behaviour: an access to the internal buffer by both
threads at once, a second send operation whose handler is confused with that of the first, a buffer that refers to a
removed message, or access to the front of an empty buffer. `terminated` records that an exception has left the network
thread; `thrown` counts the calls of `process()` that ended with an exception. -/
structure State where
  mode : Mode
  queue : List Bytes
  internal : List Bytes
  send : Send
  hpc : HPc
  apc : APc
  lock : Option Thread
  wire : List Bytes
  bad : Bool
  terminated : Bool
  thrown : Nat
  deriving DecidableEq

/-- After construction (`udp_sender.cpp:101-146`). -/
def init (mode : Mode) : State := ⟨mode, [], [], .none, .idle, .idle, none, [], false, false, 0⟩

/-- The steps of a schedule: a message is sent to the input port; the network transmits (`ok`: successfully); the
handler or the audio thread takes a step (`ok`: the blocking transmission, if it is one, is successful). -/
inductive Act where
  | enqueue (m : Bytes)
  | transmit (ok : Bool)
  | handler
  | audio (ok : Bool)
  deriving DecidableEq

/-- `pml::StringParameter( nextMsg )` with a `char const *` argument (`udp_sender.cpp:191-192`): the string ends at the
first zero byte. -/
def cString (m : Bytes) : Bytes := m.takeWhile (· ≠ 0)

/-- Does the audio thread access the internal buffer at this position? -/
def APc.accesses : APc → Bool
  | .loop _ => true
  | .copied _ => true
  | _ => false

/-- `async_send_to` (`udp_sender.cpp:198`, `:229`). A second operation while the first one is in progress would transmit
the same message and call the handler twice. -/
def startSend (s : State) : State := { s with send := .started, bad := s.bad || (s.send != .none) }

/-- Transmission of the bytes at the front of the internal buffer, to which the buffer of the operation refers. -/
def transmit (s : State) (ok : Bool) : State :=
  match s.send with
  | .started =>
    match s.internal with
    | [] => { s with bad := true }
    | m :: _ =>
      if ok = true ∧ m.length ≤ maxDatagram then
        { s with wire := s.wire ++ [m], send := .completed m.length }
      else { s with send := .failed }
  | _ => s

/-- `handleSentData` (`udp_sender.cpp:209-235`), one step. -/
def handlerStep (s : State) : State :=
  match s.hpc with
  | .idle =>
    match s.send with
    | .failed => { s with terminated := true }
    | .completed n => if s.lock = none then { s with lock := some .handler, hpc := .inside n, send := .none } else s
    | _ => s
  | .inside n =>
    match s.internal with
    | [] => { s with bad := true }
    | m :: rest =>
      if m.length ≠ n then { s with terminated := true, bad := s.bad || s.apc.accesses }
      else { s with internal := rest, hpc := .popped, bad := s.bad || s.apc.accesses }
  | .popped =>
    let s := if s.internal ≠ [] then startSend s else s
    { s with lock := none, hpc := .idle, bad := s.bad || s.apc.accesses }

/-- `process` (`udp_sender.cpp:163-207`), one step. -/
def audioStep (s : State) (ok : Bool) : State :=
  match s.apc with
  | .idle => { s with apc := if s.mode = .synchronous then .syncLoop else .want }
  | .syncLoop =>
    match s.queue with
    | [] => { s with apc := .idle }
    | m :: _ =>
      if ok = true ∧ m.length ≤ maxDatagram then { s with wire := s.wire ++ [m], apc := .syncSent }
      else { s with apc := .idle, thrown := s.thrown + 1 }
  | .syncSent => { s with queue := s.queue.tail, apc := .syncLoop }
  | .want =>
    if s.lock = none then { s with lock := some .audio, apc := .loop (decide (s.internal ≠ [])) } else s
  | .loop pending =>
    match s.queue with
    | m :: _ =>
      { s with internal := s.internal ++ [cString m], apc := .copied pending, bad := s.bad || (s.hpc != .idle) }
    | [] =>
      let s := if s.internal ≠ [] ∧ pending = false then startSend s else s
      { s with lock := none, apc := .idle, bad := s.bad || (s.hpc != .idle) }
  | .copied pending => { s with queue := s.queue.tail, apc := .loop pending }

/-- One step of a schedule; nothing happens in a terminated program. Steps that are not enabled leave the state as it
is. In the synchronous mode no thread runs the service object. -/
def step (s : State) (a : Act) : State :=
  if s.terminated = true then s
  else match a with
    | .enqueue m => { s with queue := s.queue ++ [m] }
    | .transmit ok => transmit s ok
    | .handler => if s.mode = .synchronous then s else handlerStep s
    | .audio ok => audioStep s ok

/-- The state after a schedule. -/
def exec (s : State) (acts : List Act) : State := acts.foldl step s

end Visr.UdpSender
