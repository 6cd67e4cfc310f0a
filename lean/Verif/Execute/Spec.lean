import Verif.Execute.Model
import Verif.Schedule.Spec
import Verif.Layout.Spec

/-!
# Specification: the equations of a signal flow
-/

namespace Visr.Execute
open Visr Visr.Schedule

variable {V S : Type*}

/-- Two components use a common cell, and `a` writes it. -/
def Conflict (A : Nat → Atom V S) (a b : Nat) : Prop :=
  ∃ x ∈ (A a).writes, x ∈ (A b).reads ∨ x ∈ (A b).writes

/-- Components that use a common cell that one of them writes are connected. -/
def Ordered (A : Nat → Atom V S) (atoms : List Nat) (c : Conns) : Prop :=
  ∀ a ∈ atoms, ∀ b ∈ atoms, a ≠ b → Conflict A a b → Feeds c a b ∨ Feeds c b a

/-- Every audio cell is written by at most one component, and only components fed by it read the cell. -/
structure AudioWired (A : Nat → Atom V S) (audio : Nat → Prop) (atoms : List Nat) (c : Conns) : Prop where
  unshared : ∀ a ∈ atoms, ∀ b ∈ atoms, a ≠ b → ∀ x ∈ (A a).writes, audio x → x ∉ (A b).writes
  fed : ∀ a ∈ atoms, ∀ b ∈ atoms, a ≠ b → ∀ x ∈ (A a).writes, audio x → x ∈ (A b).reads → Feeds c a b

/-- The equation of component `a` for one block: its new state and its outputs result from its old state and its inputs of
the same block. (A component can also see the previous contents of its own outputs.) -/
def Equation (A : Nat → Atom V S) (before after : State V S) (a : Nat) : Prop :=
  let inputs := fun x => if x ∈ (A a).writes then before.mem x else after.mem x
  let r := (A a).step (before.st a) inputs
  r.2.2 = true ∧ after.st a = r.1 ∧ ∀ x ∈ (A a).writes, after.mem x = r.2.1 x

/-- `after` solves the equations of all components, and nothing else changes. -/
structure Solution (A : Nat → Atom V S) (atoms : List Nat) (before after : State V S) : Prop where
  eqs : ∀ a ∈ atoms, Equation A before after a
  mem : ∀ x, (∀ a ∈ atoms, x ∉ (A a).writes) → after.mem x = before.mem x
  st : ∀ a, a ∉ atoms → after.st a = before.st a

/-- The equation of component `a` for audio signals, if it may also exchange messages with other components: its new state
and its audio outputs result from its old state and inputs among which all audio signals are those of the same block. -/
def AudioEquation (A : Nat → Atom V S) (audio : Nat → Prop) (before after : State V S) (a : Nat) (inputs : Nat → V) : Prop :=
  (∀ x, audio x → inputs x = if x ∈ (A a).writes then before.mem x else after.mem x) ∧
  ((A a).step (before.st a) inputs).2.2 = true ∧ after.st a = ((A a).step (before.st a) inputs).1 ∧
  ∀ x ∈ (A a).writes, audio x → after.mem x = ((A a).step (before.st a) inputs).2.1 x

/-! ## Components of an initialised flow -/

/-- The components of a flow with the buffers `l`: `own` gives the component a port belongs to. Cells below `l.pool` are
audio buffers, the others are the contents of parameter connections. -/
structure Wired (env : Layout.Env) (conns : List Layout.Conn) (l : Layout.Result) (own : Layout.PortRef → Owner)
    (A : Nat → Atom V S) (atoms : List Nat) (c : Conns) : Prop where
  /-- The schedule is computed from the final connections. -/
  audio : c.audio = l.conns.map fun d => (own d.1.1, own d.2.1)
  /-- A component writes audio signals only to its own output channels. -/
  writes : ∀ a ∈ atoms, ∀ x ∈ (A a).writes, x < l.pool →
    ∃ ch, Layout.Written env conns l ch ∧ own ch.1 = ⟨a, false⟩ ∧ l.addr ch = some x
  /-- A component reads audio signals only from its own output and (connected) input channels. -/
  reads : ∀ a ∈ atoms, ∀ x ∈ (A a).reads, x < l.pool →
    x ∈ (A a).writes ∨ ∃ d ∈ l.conns, own d.2.1 = ⟨a, false⟩ ∧ l.addr d.2 = some x
  /-- Components that change and use the same parameter data are connected. -/
  params : ∀ a ∈ atoms, ∀ b ∈ atoms, a ≠ b → ∀ x ∈ (A a).writes, l.pool ≤ x → (x ∈ (A b).reads ∨ x ∈ (A b).writes) →
    Feeds c a b ∨ Feeds c b a
  /-- A copy component copies its inputs to its outputs according to its index list (`SignalRoutingInternal::process()`,
  `src/librrl/signal_routing_internal.cpp:52-66`). -/
  copies : ∀ ρ ∈ l.routings, ∃ a ∈ atoms, own (.routeIn ρ.recv) = ⟨a, false⟩ ∧ own (.routeOut ρ.recv) = ⟨a, false⟩ ∧
    (∀ p, own p = ⟨a, false⟩ → p = .routeIn ρ.recv ∨ p = .routeOut ρ.recv) ∧
    ∀ i j x y, ρ.indices[i]? = some j → l.addr (.routeIn ρ.recv, j) = some x → l.addr (.routeOut ρ.recv, i) = some y →
      x ∈ (A a).reads ∧ y ∈ (A a).writes ∧ ∀ st m, ((A a).step st m).2.1 y = m x

/-- Channel numbers as seen by the user: the ports in order, the channels of a port in order. -/
def number (env : Layout.Env) : List Nat → Nat → Nat → Option Nat
  | [], _, _ => none
  | p :: ps, q, i => if p = q then (if i < env.width p then some i else none)
      else (number env ps q i).map fun n => env.width p + n

/-- Every external input port is connected, every channel of an external output port is connected, and the inputs are
ports of the flow itself (which is a composite). -/
structure ExtConnected (env : Layout.Env) (conns : List Layout.Conn) (own : Layout.PortRef → Owner) (inPorts outPorts : List Nat) :
    Prop where
  ins : ∀ p ∈ inPorts, 0 < env.width p → ∃ κ ∈ conns, κ.1.1 = p
  outs : ∀ p ∈ outPorts, ∀ i < env.width p, ∃ κ ∈ conns, κ.2 = (p, i)
  own : ∀ p ∈ inPorts, (own (.orig p)).composite = true
  insNodup : inPorts.Nodup
  outsNodup : outPorts.Nodup

/-- The samples of the first `chans` channels do not overlap in memory. -/
def View.Disjoint (v : View) (chans n : Nat) : Prop :=
  ∀ ch < chans, ∀ ch' < chans, ∀ i < n, ∀ i' < n, v.base ch + i * v.stride = v.base ch' + i' * v.stride → ch = ch' ∧ i = i'

/-- What a successful call of `process()` does: `before` and `after` are the states of the flow, `q` the arguments, `out`
the resulting output memory, `ins` and `outs` the external ports. -/
structure BlockDone {F : Type*} {n : Nat} (k : Codec F V n) (env : Layout.Env) (conns : List Layout.Conn)
    (l : Layout.Result) (own : Layout.PortRef → Owner) (A : Nat → Atom V S) (atoms : List Nat) (ins outs : List Nat)
    (q : Call F) (before after : State V S) (out : Nat → F) : Prop where
  /-- External inputs carry the samples passed by the user. -/
  captured : ∀ p i ch x, number env ins p i = some ch → l.addr (.orig p, i) = some x →
    k.dec (after.mem x) = q.vin.block n q.user ch
  /-- The components' equations hold for this block, and every input of a component is the signal sent by the output or
  external input connected to it, in the same block. -/
  eqs : ∀ a ∈ atoms, ∃ inputs,
    (∀ κ ∈ conns, own (.orig κ.2.1) = ⟨a, false⟩ → ∀ x y, l.addr (.orig κ.1.1, κ.1.2) = some x →
      l.addr (.orig κ.2.1, κ.2.2) = some y → inputs y = after.mem x) ∧
    (∀ x ∈ (A a).writes, x < l.pool → inputs x = before.mem x) ∧
    ((A a).step (before.st a) inputs).2.2 = true ∧ after.st a = ((A a).step (before.st a) inputs).1 ∧
    ∀ x ∈ (A a).writes, x < l.pool → after.mem x = ((A a).step (before.st a) inputs).2.1 x
  /-- The user receives the signals connected to the external outputs. -/
  played : ∀ κ ∈ conns, ∀ ch x, number env outs κ.2.1 κ.2.2 = some ch → l.addr (.orig κ.1.1, κ.1.2) = some x →
    ∀ i : Fin n, out (q.vout.base ch + i * q.vout.stride) = k.dec (after.mem x) i

end Visr.Execute
