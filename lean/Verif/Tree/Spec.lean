import Verif.Tree.Model

/-!
# Specification of the component tree

What a user sees of components and ports: their names and their place in the tree.
-/

namespace Visr.Tree
open Visr

/-- `c` is an existing component called `nm` with parent `p`. -/
def IsChild (s : State) (p : Nat) (nm : Name) (c : Nat) : Prop := ∃ k, s.comps c = some k ∧ k.parent = some p ∧ k.name = nm

/-- `x` is an existing port of kind `kind` called `nm` of the component `c`. -/
def IsPort (s : State) (c : Nat) (kind : Kind) (nm : Name) (x : Nat) : Prop :=
  ∃ q, s.ports x = some q ∧ q.comp = some c ∧ q.kind = kind ∧ q.name = nm

/-- The component `c` is reached from the top-level component `r` through children with the given names. -/
inductive Path (s : State) (r : Nat) : Nat → List Name → Prop where
  | top {k : Comp} (h : s.comps r = some k) (hp : k.parent = none) : Path s r r []
  | child {p c : Nat} {l : List Name} {nm : Name} (h : Path s r p l) (hc : IsChild s p nm c) : Path s r c (l ++ [nm])

/-- The port belongs to the composite `p` or to one of its direct children. -/
def Local (s : State) (p x : Nat) : Prop :=
  ∃ q c, s.ports x = some q ∧ q.comp = some c ∧ (c = p ∨ ∃ k, s.comps c = some k ∧ k.parent = some p)

/-- The port and its component exist. -/
def Alive (s : State) (x : Nat) : Prop := ∃ q c k, s.ports x = some q ∧ q.comp = some c ∧ s.comps c = some k

end Visr.Tree
