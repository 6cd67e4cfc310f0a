import Verif.Layout.Model

/-!
# Specification of buffer assignment

Stated in terms of the addresses of channels: where a component writes the samples of an output channel, and where it
reads the samples of an input channel.
-/

namespace Visr.Layout
open Visr

/-- Connections of an accepted flow: channel indices lie within the ports, every channel of a connected receive port has
exactly one connection, connected ports have the same sample type, and no port is both a sender and a receiver. -/
structure WellFormed (env : Env) (conns : List Conn) : Prop where
  sendIdx : ∀ k ∈ conns, k.1.2 < env.width k.1.1
  recvIdx : ∀ k ∈ conns, k.2.2 < env.width k.2.1
  once : ∀ k ∈ conns, ∀ j < env.width k.2.1, (conns.map Prod.snd).count (k.2.1, j) = 1
  types : ∀ k ∈ conns, env.stype k.1.1 = env.stype k.2.1
  roles : ∀ k ∈ conns, ∀ k' ∈ conns, k.1.1 ≠ k'.2.1

/-- Admissible environments: any order of the ports, and sample sizes that divide the alignment. -/
structure EnvOK (env : Env) : Prop where
  order : ∀ l, (env.order l).Perm l
  align : 0 < env.align
  size : ∀ t, 0 < env.size t ∧ env.size t ∣ env.align

/-- Sample type of a port; the ports of a copy component have the type of the receive port they were created for. -/
def typeOf (env : Env) : PortRef → Nat
  | .orig a => env.stype a
  | .routeIn r => env.stype r
  | .routeOut r => env.stype r

/-- The channels that are written: the channels of all connected send ports and the outputs of the copy components. -/
def Written (env : Env) (conns : List Conn) (l : Result) (c : Chan) : Prop :=
  (∃ k ∈ conns, c.1 = .orig k.1.1 ∧ c.2 < env.width k.1.1) ∨
  (∃ ρ ∈ l.routings, c.1 = .routeOut ρ.recv ∧ c.2 < ρ.indices.length)

/-- Bytes occupied by one channel of a port. -/
def bytes (env : Env) (c : Chan) : Nat := env.period * env.size (typeOf env c.1)

/-- The receive channel reads the memory its sender writes. -/
def Direct (l : Result) (k : Conn) : Prop :=
  (∃ a, l.addr (.orig k.1.1, k.1.2) = some a ∧ l.addr (.orig k.2.1, k.2.2) = some a) ∧
  lift k ∈ l.conns

/-- The receive channel reads an output of the copy component `ρ`, which copies one of its inputs there, and that input
reads the memory the sender writes. -/
def ViaCopy (l : Result) (ρ : Routing) (k : Conn) : Prop :=
  ρ.recv = k.2.1 ∧ ∃ j, ρ.indices[k.2.2]? = some j ∧ j < ρ.inWidth ∧
    (∃ a, l.addr (.orig k.1.1, k.1.2) = some a ∧ l.addr (.routeIn ρ.recv, j) = some a) ∧
    (∃ a, l.addr (.routeOut ρ.recv, k.2.2) = some a ∧ l.addr (.orig k.2.1, k.2.2) = some a) ∧
    ((.orig k.1.1, k.1.2), (.routeIn ρ.recv, j)) ∈ l.conns ∧
    ((.routeOut ρ.recv, k.2.2), (.orig k.2.1, k.2.2)) ∈ l.conns

/-- A correct assignment of buffers. -/
structure Correct (env : Env) (conns : List Conn) (l : Result) : Prop where
  /-- Every written channel has an aligned buffer inside the pool. -/
  inPool : ∀ c, Written env conns l c → ∃ a, l.addr c = some a ∧ a + bytes env c ≤ l.pool ∧ env.align ∣ a
  /-- The buffers of different written channels do not overlap. -/
  disjoint : ∀ c c', Written env conns l c → Written env conns l c' → c ≠ c' → ∀ a a', l.addr c = some a →
    l.addr c' = some a' → a + bytes env c ≤ a' ∨ a' + bytes env c' ≤ a
  /-- Every receive channel gets the samples of the channel connected to it. -/
  received : ∀ k ∈ conns, Direct l k ∨ ∃ ρ ∈ l.routings, ViaCopy l ρ k
  /-- A port has at most one copy component. This has an output for every channel of the port and serves all its
  connections. -/
  copies : (l.routings.map Routing.recv).Nodup ∧ ∀ ρ ∈ l.routings, (∃ k ∈ conns, k.2.1 = ρ.recv) ∧
    ρ.indices.length = env.width ρ.recv ∧ ∀ k ∈ conns, k.2.1 = ρ.recv → ViaCopy l ρ k
  /-- The final connections, which determine the schedule, are those needed for this and no others. -/
  conns : ∀ d ∈ l.conns, (∃ k ∈ conns, Direct l k ∧ d = lift k) ∨
    (∃ k ∈ conns, ∃ ρ ∈ l.routings, ρ.recv = k.2.1 ∧ ∃ j, ρ.indices[k.2.2]? = some j ∧
      (d = ((.orig k.1.1, k.1.2), (.routeIn ρ.recv, j)) ∨
       d = ((.routeOut ρ.recv, k.2.2), (.orig k.2.1, k.2.2))))

end Visr.Layout
