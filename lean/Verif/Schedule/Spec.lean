import Verif.Schedule.Model
import Mathlib.Logic.Relation

/-!
# Specification of schedules

Component `a` feeds component `b` if an audio or parameter connection leads from a port of the (non-composite)
component `a` to a port of `b`.
-/

namespace Visr.Schedule
open Visr Relation

/-- Component `a` sends to component `b`. Connections from external inputs (ports of composites) do not count. -/
def Feeds (c : Conns) (a b : Nat) : Prop :=
  (∃ k ∈ c.audio, k.1 = ⟨a, false⟩ ∧ k.2.addr = b) ∨ (∃ k ∈ c.param, k.2 = ⟨a, false⟩ ∧ k.1.addr = b)

/-- Some component depends (indirectly) on its own output. -/
def CyclicFlow (c : Conns) : Prop := ∃ a, TransGen (Feeds c) a a

/-- The component tree contains, at any depth, an atomic component with address `a`. -/
inductive AtomIn : Comp → Nat → Prop where
  | atom (a : Nat) : AtomIn (.atom a) a
  | child {a : Nat} {x : Nat} {cs : List Comp} {c : Comp} (hc : c ∈ cs) (h : AtomIn c a) : AtomIn (.composite x cs) a

/-- `a` is executed before `b`. -/
def Before (l : List Nat) (a b : Nat) : Prop := ∃ x y z, l = x ++ a :: y ++ b :: z

/-- `l` is a complete and admissible schedule of the atoms: every atom occurs exactly once, and no component is executed
before the components it receives from. -/
structure Admissible (atoms : List Nat) (c : Conns) (l : List Nat) : Prop where
  perm : l.Perm atoms
  nodup : l.Nodup
  order : ∀ a b, Feeds c a b → b ∈ atoms → Before l a b

/-- The connections refer to components of the flow, and each component occurs once. -/
structure WellFormed (flow : Comp) (c : Conns) : Prop where
  nodup : flow.atoms.Nodup
  senders : ∀ a b, Feeds c a b → a ∈ flow.atoms

end Visr.Schedule
