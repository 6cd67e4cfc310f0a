import Verif.Clock.Model

/-!
# Specification: what happened in a history of calls

These definitions look only at the calls of the program, not at the state of the model.
-/

namespace Visr.Clock

/-- The components which were constructed, in order: their contexts and their parents. -/
def created (ops : List Op) : List (Context × Option Nat) :=
  ops.filterMap fun o => match o with
    | .component context parent => some (context, parent)
    | _ => none

/-- The components for which signal flows were accepted, in order. -/
def flowsOf (ops : List Op) : List Nat :=
  ops.filterMap fun o => match o with
    | .flow c true => some c
    | _ => none

/-- For each component the component at the top of its tree: the component itself if it has no parent, otherwise the top of
its parent. -/
def tops (l : List (Context × Option Nat)) : List Nat :=
  l.foldl (fun acc x => acc ++ [match x.2 with
    | none => acc.length
    | some p => acc.getD p 0]) []

/-- The component `c` belongs to the tree with the top `r`. -/
def InTree (ops : List Op) (r c : Nat) : Prop := (tops (created ops))[c]? = some r

instance (ops : List Op) (r c : Nat) : Decidable (InTree ops r c) := by unfold InTree; infer_instance

/-- The call is the construction of a signal flow which is accepted for a component in the tree of `r`. -/
def starts (ops : List Op) (r : Nat) : Op → Bool
  | .flow c true => decide (InTree ops r c)
  | _ => false

/-- The call processes a block of a signal flow in the tree of `r`, and no component throws. -/
def completes (ops : List Op) (r : Nat) : Op → Bool
  | .process f _ false => match (flowsOf ops)[f]? with
    | some c => decide (InTree ops r c)
    | none => false
  | _ => false

end Visr.Clock
