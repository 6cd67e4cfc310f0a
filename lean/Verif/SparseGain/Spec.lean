import Verif.SparseGain.Model
import Verif.GainFader.Spec

/-!
# Specification of sparse gain matrices
-/

namespace Visr.SparseGain
open Visr

variable {K : Type*} [Field K] [LinearOrder K]

/-- What a user knows about the component from the events so far: the routings in force, the gain of each entry, the
number of blocks since the last change, and the settings that wait for the next `process()` call. -/
structure View (K : Type*) where
  routings : List (Routing K)
  target : Nat → K
  age : Nat
  newRoutings : Option (List (Routing K))
  newGains : Option (List K)

/-- Gains after a new routing list: the gain given for the entry. Entries that are not in the list are not used. -/
def listGain (rs : List (Routing K)) (old : Nat → K) (e : Nat) : K :=
  (((rs.filter (·.entry = e)).getLast?).map (·.gain)).getD (old e)

/-- Settings take effect at the beginning of a block: first the routing list, then the gains. -/
def View.routed (v : View K) : View K :=
  match v.newRoutings with
  | none => v
  | some rs => { v with routings := rs, target := listGain rs v.target, age := 0, newRoutings := none }

/-- See `View.routed`. -/
def View.gained (v : View K) : View K :=
  match v.newGains with
  | none => v
  | some g => { v with target := fun e => g.getD e 0, age := 0, newGains := none }

/-- The effect of an event. -/
def View.step (v : View K) : Op K → View K
  | .routings rs => { v with newRoutings := some rs }
  | .gains g => { v with newGains := some g }
  | .point _ => v
  | .process _ => let w := v.routed.gained; { w with age := w.age + 1 }

/-- The view after construction. -/
def View.init (initial : List (Routing K)) : View K := ⟨initial, listGain initial (fun _ => 0), 0, none, none⟩

/-- The view after a sequence of events. -/
def view (initial : List (Routing K)) (ops : List (Op K)) : View K := ops.foldl View.step (View.init initial)

/-- The routings fit the dimensions of the component. -/
def Fits (inputs outputs points : Nat) (rs : List (Routing K)) : Prop :=
  ∀ r ∈ rs, r.entry < points ∧ r.row < outputs ∧ r.col < inputs

/-- Only settings that fit are sent. -/
def AllFit (inputs outputs points : Nat) (ops : List (Op K)) : Prop :=
  ∀ op ∈ ops, match op with
    | .routings rs => Fits inputs outputs points rs
    | .gains g => g.length = points
    | _ => True

/-- Each output is the sum over the routings that end there of gain times input; `gain r k` is the gain of routing `r`
at sample `k` of the block. -/
def mixed (outputs blockSize : Nat) (rs : List (Routing K)) (gain : Routing K → Nat → K) (audio : List (List K)) :
    List (List K) :=
  (List.range outputs).map fun o => (List.range blockSize).map fun k =>
    ((rs.filter (·.row = o)).map fun r => gain r k * (audio.getD r.col []).getD k 0).sum

end Visr.SparseGain
