import Verif.ParamFlow.Model
import Verif.Flow.Spec
import Verif.Placeholder.Spec
import Mathlib.Data.List.Forall2

/-!
# Specification of the parameter infrastructure

Connections are pairs (receiver, sender) of port addresses.
-/

namespace Visr.ParamFlow
open Visr Visr.Flow Visr.Protocol

variable {α : Type}

/-- Connections lead from senders (outputs of components, inputs of the flow) to receivers (inputs of components, outputs of
the flow). -/
def Roles (env : Env α) (conns : List (Nat × Nat)) : Prop :=
  ∀ r s, (r, s) ∈ conns →
    (if env.top r then (env.port r).input = false else (env.port r).input = true) ∧
    (if env.top s then (env.port s).input = true else (env.port s).input = false)

/-- The ports of the flow have different names. -/
def DistinctNames (env : Env α) : Prop := ∀ p q, env.top p = true → env.top q = true → env.name p = env.name q → p = q

/-- The protocol of the port is registered, and so is the parameter type if the protocol holds a parameter. -/
def Creatable (env : Env α) (p : Nat) : Prop :=
  env.kind (env.port p).protocol = some .messageQueue ∨
    (env.kind (env.port p).protocol ≠ none ∧ env.create (env.port p).type (env.port p).config ≠ none)

/-- The connections that a flow accepts: no connection twice, every receiver has one sender, the ports of each connection
match, the protocol can be created, and message queues have one receiver. -/
structure Acceptable (env : Env α) (conns : List (Nat × Nat)) : Prop where
  once : conns.Nodup
  single : ∀ r s s', (r, s) ∈ conns → (r, s') ∈ conns → s = s'
  fits : ∀ r s, (r, s) ∈ conns → Matches env.cmp (env.port s) (env.port r)
  creatable : ∀ r s, (r, s) ∈ conns → Creatable env s
  oneToOne : ∀ r r' s, (r, s) ∈ conns → (r', s) ∈ conns → env.kind (env.port s).protocol = some .messageQueue → r = r'

/-- The protocol object `i` is new, belongs to the protocol and parameter type of the port `s`, has `s` as its only
output and exactly the ports `rs` as its inputs. -/
def Wired (env : Env α) (s : Nat) (rs : List Nat) (i : Inst α) : Prop :=
  i.protocol = (env.port s).protocol ∧ i.type = (env.port s).type ∧
  match env.kind (env.port s).protocol with
  | none => False
  | some .messageQueue =>
    ∃ r, rs = [r] ∧ i.state = .mq ⟨[], some r, some s, fun q => decide (q = r), fun q => decide (q = s)⟩
  | some .doubleBuffering =>
    ∃ d, env.create (env.port s).type (env.port s).config = some d ∧
      i.state = .db ⟨d, d, rs, some s, fun q => decide (q ∈ rs), fun q => decide (q = s), fun _ => false⟩
  | some .sharedData =>
    ∃ d, env.create (env.port s).type (env.port s).config = some d ∧
      i.state = .sd ⟨d, rs, some s, fun q => decide (q ∈ rs), fun q => decide (q = s)⟩

/-- `rs` lists the receivers connected to `s`. -/
def ReceiversOf (conns : List (Nat × Nat)) (s : Nat) (rs : List Nat) : Prop := rs.Nodup ∧ ∀ r, r ∈ rs ↔ (r, s) ∈ conns

/-- The state of the flow implements the connections: one protocol object for every sender, attached to the sender and
its receivers; and an external endpoint under the name of each connected port of the flow. -/
structure Implements (env : Env α) (conns : List (Nat × Nat)) (st : State α) : Prop where
  objects : ∃ senders : List Nat, senders.Nodup ∧ (∀ s, s ∈ senders ↔ ∃ r, (r, s) ∈ conns) ∧
    List.Forall₂ (fun s i => ∃ rs, ReceiversOf conns s rs ∧ Wired env s rs i) senders st.protocols
  receive : ∀ n p, (n, p) ∈ st.receive ↔ env.top p = true ∧ n = env.name p ∧ ∃ r, (r, p) ∈ conns
  send : ∀ n p, (n, p) ∈ st.send ↔ env.top p = true ∧ n = env.name p ∧ ∃ s, (p, s) ∈ conns

/-- The pointer from the output port `s` to the protocol object is set. -/
def Inst.outPtr (i : Inst α) (s : Nat) : Bool :=
  match i.state with
  | .mq x => x.outPtr s
  | .db x => x.outPtr s
  | .sd x => x.outPtr s

/-- The pointer from the input port `r` to the protocol object is set. -/
def Inst.inPtr (i : Inst α) (r : Nat) : Bool :=
  match i.state with
  | .mq x => x.inPtr r
  | .db x => x.inPtr r
  | .sd x => x.inPtr r

/-! ## Flows -/

/-- Some composite in the flow connects the port `s` to the port `r`. -/
def Connects (flow : Comp) (s r : Nat) : Prop :=
  ∃ audio param children aconns pconns, Within (.composite audio param children aconns pconns) flow ∧
    ∃ k ∈ pconns, k.sender = s ∧ k.receiver = r

mutual
/-- The parameter ports of a component and everything in it. -/
def allParam : Comp → List PPort
  | .atom _ own => own
  | .composite _ own children _ _ => own ++ allParams children
/-- The same for a list of components. -/
def allParams : List Comp → List PPort
  | [] => []
  | c :: cs => allParam c ++ allParams cs
end

mutual
/-- How often which ports are connected as receivers, in all composites of the flow. -/
def registered : Comp → List Nat
  | .atom _ _ => []
  | .composite _ _ children _ pconns => pconns.map PConn.receiver ++ registeredAll children
/-- The same for a list of components. -/
def registeredAll : List Comp → List Nat
  | [] => []
  | c :: cs => registered c ++ registeredAll cs
end

/-- The description of the ports agrees with the flow: different ports have different addresses, and the ports of the flow
itself are the top-level ports. -/
structure Describes (env : Env α) (flow : Comp) : Prop where
  addresses : ((allParam flow).map PPort.id).Nodup
  levels : DistinctAddresses flow
  port : ∀ p ∈ allParam flow, env.port p.id = p
  top : ∀ x, env.top x = true ↔ x ∈ flow.param.map PPort.id

/-- A real port: of an atomic component or of the flow itself. -/
def Real (flow : Comp) (p : Nat) : Prop := isPlaceholder flow p = false

/-- The port `s` is the source of the port `r`: following the connections backwards from `r` through ports of composites
leads to the real port `s`. -/
def Source (flow : Comp) (r s : Nat) : Prop := Placeholder.Chain (isPlaceholder flow) (Connects flow) r s

/-- The flows that are accepted, as far as parameters are concerned: every composite is well connected, every connected real
receiver has a source, no real receiver is connected twice, source and receiver match, the protocol can be created, and
message queues have one receiver. -/
structure Usable (env : Env α) (flow : Comp) : Prop where
  levels : ∀ audio param children aconns pconns, Within (.composite audio param children aconns pconns) flow →
    ParamOK env.cmp param (children.map Comp.param) pconns
  sources : ∀ s r, Connects flow s r → Real flow r → ∃ s', Source flow r s'
  once : ((registered flow).filter fun r => !isPlaceholder flow r).Nodup
  fits : ∀ r s, Real flow r → Source flow r s → Matches env.cmp (env.port s) (env.port r)
  creatable : ∀ r s, Real flow r → Source flow r s → Creatable env s
  oneToOne : ∀ r r' s, Real flow r → Real flow r' → Source flow r s → Source flow r' s →
    env.kind (env.port s).protocol = some .messageQueue → r = r'

/-- `p` is a real port that sends values: an output of an atomic component or an input of the flow. -/
def RealSender (flow : Comp) (p : Nat) : Prop :=
  (∃ audio own, Within (.atom audio own) flow ∧ ∃ q ∈ own, q.id = p ∧ q.input = false) ∨
  (∃ q ∈ flow.param, q.id = p ∧ q.input = true)

/-- `p` is a real port that receives values: an input of an atomic component or an output of the flow. -/
def RealReceiver (flow : Comp) (p : Nat) : Prop :=
  (∃ audio own, Within (.atom audio own) flow ∧ ∃ q ∈ own, q.id = p ∧ q.input = true) ∨
  (∃ q ∈ flow.param, q.id = p ∧ q.input = false)

end Visr.ParamFlow
