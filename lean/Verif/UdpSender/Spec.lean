import Verif.UdpSender.Model

/-!
# Specification of the UDP sender (C71)
-/

namespace Visr.UdpSender

/-- The messages sent to the component in a schedule, in order. -/
def messages : List Act → List Bytes
  | [] => []
  | .enqueue m :: acts => m :: messages acts
  | _ :: acts => messages acts

/-- What the component transmits for a message. -/
def datagram (mode : Mode) (m : Bytes) : Bytes :=
  match mode with
  | .synchronous => m
  | .asynchronous => cString m

/-- All transmissions of the schedule are successful as far as the network is concerned. -/
def NoFailure (acts : List Act) : Prop := ∀ a ∈ acts, a ≠ .transmit false ∧ a ≠ .audio false

/-- All messages fit into a datagram. -/
def Fit (acts : List Act) : Prop := ∀ m ∈ messages acts, m.length ≤ maxDatagram

/-- Nothing is in progress. -/
def Quiet (s : State) : Prop := s.apc = .idle ∧ s.queue = [] ∧ s.send = .none ∧ s.hpc = .idle

end Visr.UdpSender
