import Verif.Flow.Model

/-!
# Specification: well-connected flows
-/

namespace Visr.Flow
open Visr

/-- Inside a composite with the given ports and children, `p` can send signals: an input of the composite itself or an
output of a child. -/
def CanSend {P : Type} (input : P → Bool) (own : List P) (children : List (List P)) (p : P) : Prop :=
  (p ∈ own ∧ input p = true) ∨ (∃ c ∈ children, p ∈ c ∧ input p = false)

/-- Inside a composite, `p` can receive signals: an output of the composite itself or an input of a child. -/
def CanReceive {P : Type} (input : P → Bool) (own : List P) (children : List (List P)) (p : P) : Prop :=
  (p ∈ own ∧ input p = false) ∨ (∃ c ∈ children, p ∈ c ∧ input p = true)

/-- The single channel connections of a connection. -/
def AConn.pairs (c : AConn) : List (Chan × Chan) :=
  List.zip (c.sendIndices.map fun i => (c.sender, i)) (c.receiveIndices.map fun i => (c.receiver, i))

/-- All channel connections of a connection table. -/
def pairs (conns : List AConn) : List (Chan × Chan) := conns.flatMap AConn.pairs

/-- The audio connections of one composite are well-formed: they lead from existing send ports to existing receive
ports, the index lists have the same length and lie within the port widths, every receive channel has exactly one
connection and every send channel at least one. -/
structure AudioOK (own : List APort) (children : List (List APort)) (conns : List AConn) : Prop where
  known : ∀ c ∈ conns, ∃ s r, CanSend APort.input own children s ∧ s.id = c.sender ∧
    CanReceive APort.input own children r ∧ r.id = c.receiver ∧ c.sendIndices.length = c.receiveIndices.length ∧
    (∀ i ∈ c.sendIndices, i < s.width) ∧ (∀ i ∈ c.receiveIndices, i < r.width)
  receive : ∀ r, CanReceive APort.input own children r → ∀ i < r.width, ((pairs conns).map Prod.snd).count (r.id, i) = 1
  send : ∀ s, CanSend APort.input own children s → ∀ i < s.width, (s.id, i) ∈ (pairs conns).map Prod.fst

/-- Two parameter ports can be connected: same protocol, same parameter type, matching configurations. -/
def Matches (cmp : Nat → Nat → Option Bool) (s r : PPort) : Prop :=
  s.protocol = r.protocol ∧ s.type = r.type ∧ cmp s.config r.config = some true

/-- The parameter connections of one composite are well-formed: they lead from existing send ports to existing matching
receive ports, and every port is connected. -/
structure ParamOK (cmp : Nat → Nat → Option Bool) (own : List PPort) (children : List (List PPort)) (conns : List PConn) :
    Prop where
  known : ∀ k ∈ conns, ∃ s r, CanSend PPort.input own children s ∧ s.id = k.sender ∧
    CanReceive PPort.input own children r ∧ r.id = k.receiver ∧ Matches cmp s r
  receive : ∀ r, CanReceive PPort.input own children r → ∃ k ∈ conns, k.receiver = r.id
  send : ∀ s, CanSend PPort.input own children s → ∃ k ∈ conns, k.sender = s.id

/-- A component is contained in another one (or is the same). -/
inductive Within : Comp → Comp → Prop
  | self (c : Comp) : Within c c
  | child {c d : Comp} {audio : List APort} {param : List PPort} {children : List Comp} {aconns : List AConn}
      {pconns : List PConn} : d ∈ children → Within c d → Within c (.composite audio param children aconns pconns)

/-- All composites of the tree are well connected. -/
def WellConnected (cmp : Nat → Nat → Option Bool) (flow : Comp) : Prop :=
  ∀ audio param children aconns pconns, Within (.composite audio param children aconns pconns) flow →
    AudioOK audio (children.map Comp.audio) aconns ∧ ParamOK cmp param (children.map Comp.param) pconns

/-- The ports of one level have different addresses. -/
def DistinctPorts {P : Type} (id : P → Nat) (own : List P) (children : List (List P)) : Prop :=
  ((own ++ children.flatten).map id).Nodup

/-- At every level of the tree the ports have different addresses. -/
def DistinctAddresses (flow : Comp) : Prop :=
  ∀ audio param children aconns pconns, Within (.composite audio param children aconns pconns) flow →
    DistinctPorts APort.id audio (children.map Comp.audio) ∧ DistinctPorts PPort.id param (children.map Comp.param)

end Visr.Flow
