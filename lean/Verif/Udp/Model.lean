import Verif.Run

/-!
# The UDP receiver

Models `/repo/src/librcl/udp_receiver.cpp`: the network handler and the audio thread as
two processes which interleave at single steps.  `boost::asio` is modelled by what it
guarantees: an armed receive operation takes the oldest datagram from the socket into
the receive buffer and makes the handler runnable; a handler runs once per completion.

Every access to the internal message buffer is a separate step.  The C++ code has a data
race (undefined behaviour) if the two threads access the buffer without the lock
excluding each other; `race` records this.
-/

namespace Visr.Udp

open Visr

/-- `UdpReceiver::Mode` (udp_receiver.hpp:33-39). -/
inductive Mode where
  | synchronous
  | asynchronous
  deriving DecidableEq

/-- `cMaxMessageLength` (udp_receiver.hpp:41). -/
def cMaxMessageLength : Nat := 65536

/-- Where the network side is: receive operation pending; completed with the handler
runnable (`err`: completed with an error, zero bytes transferred); handler holding the
lock before `push_back`; holding it after `push_back`; lock released, about to start the
next receive operation (udp_receiver.cpp:182-198). -/
inductive HPc where
  | armed
  | ready (err : Bool)
  | inside (err : Bool)
  | pushed
  | rearm
  deriving DecidableEq

/-- Where the audio thread is: outside of `process()`; in `poll()` (synchronous mode);
before taking the lock; at the loop test; between `enqueue` and `pop_front`
(udp_receiver.cpp:163-180). -/
inductive APc where
  | idle
  | polling
  | want
  | loop
  | copied
  deriving DecidableEq

/-- The holder of `mMutex`. -/
inductive Thread where
  | handler
  | audio
  deriving DecidableEq

variable {β : Type}

/-- The state: the datagrams in the socket (oldest first), `mReceiveBuffer`, the two
positions, `mMutex`, `mInternalMessageBuffer`, the messages passed to the output queue,
and whether a data race has occurred. -/
structure State (β : Type) where
  mode : Mode
  sock : List (List β)
  buffer : List β
  hpc : HPc
  apc : APc
  lock : Option Thread
  internal : List (List β)
  out : List (List β)
  race : Bool

/-- After construction a receive operation is pending (udp_receiver.cpp:125-142). -/
def init (mode : Mode) : State β := ⟨mode, [], [], .armed, .idle, none, [], [], false⟩

/-- The steps of a schedule. -/
inductive Act (β : Type) where
  | arrive (d : List β)
  | complete
  | fail
  | handler
  | audio

/-- Does the audio thread access the internal buffer at this point? -/
def APc.accesses : APc → Bool
  | .loop => true
  | .copied => true
  | _ => false

/-- Does the handler access the internal buffer at this point? -/
def HPc.accesses : HPc → Bool
  | .inside _ => true
  | _ => false

/-- `handleReceiveData` (udp_receiver.cpp:182-198), one step; `err` completions are not
distinguished by the code (the argument `error` is unused): the message has zero bytes. -/
def handlerStep (s : State β) : State β :=
  match s.hpc with
  | .armed => s
  | .ready err => if s.lock = none then { s with lock := some .handler, hpc := .inside err } else s
  | .inside err =>
    { s with internal := s.internal ++ [if err then [] else s.buffer], hpc := .pushed,
             race := s.race || s.apc.accesses }
  | .pushed => { s with lock := none, hpc := .rearm }
  | .rearm => { s with hpc := .armed }

/-- `process` (udp_receiver.cpp:163-180), one step. -/
def audioStep (s : State β) : State β :=
  match s.apc with
  | .idle => { s with apc := if s.mode = .synchronous then .polling else .want }
  | .polling =>
    match s.hpc with
    | .armed => { s with apc := .want }
    | .ready _ => { s with apc := .want }
    | _ => s
  | .want => if s.lock = none then { s with lock := some .audio, apc := .loop } else s
  | .loop =>
    match s.internal with
    | [] => { s with lock := none, apc := .idle, race := s.race || s.hpc.accesses }
    | m :: _ => { s with out := s.out ++ [m], apc := .copied, race := s.race || s.hpc.accesses }
  | .copied => { s with internal := s.internal.tail, apc := .loop, race := s.race || s.hpc.accesses }

/-- One step of a schedule.  Steps that are not enabled leave the state as it is.  In
synchronous mode handlers run inside `poll()` (udp_receiver.cpp:165-168). -/
def step (s : State β) : Act β → State β
  | .arrive d => { s with sock := s.sock ++ [d] }
  | .complete =>
    match s.hpc, s.sock with
    | .armed, d :: r => { s with sock := r, buffer := d.take cMaxMessageLength, hpc := .ready false }
    | _, _ => s
  | .fail =>
    match s.hpc with
    | .armed => { s with hpc := .ready true }
    | _ => s
  | .handler => if s.mode = .synchronous ∧ s.apc ≠ .polling then s else handlerStep s
  | .audio => audioStep s

/-- The state after a schedule. -/
def exec (s : State β) (acts : List (Act β)) : State β := acts.foldl step s

end Visr.Udp
