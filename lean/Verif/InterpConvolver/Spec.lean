import Verif.InterpConvolver.Model
import Verif.Crossfade.Spec

/-!
# Specification of the interpolating convolver

A database of impulse responses, and a crossfading convolver whose slots hold weighted sums of impulse responses of the
database. No transforms.
-/

namespace Visr.InterpConvolver
open Visr Visr.Convolver

variable {K F : Type} [Field K]

/-- Limits: `maxRoutings` entries of the routing table, which is also the bound of the ids of interpolants, `slots` interpolated
filters, `maxFilters` impulse responses in the database, each of at most `maxLen` samples, and `interpolants` terms per
interpolated filter. -/
structure Limits where
  inputs : Nat
  outputs : Nat
  block : Nat
  maxLen : Nat
  maxRoutings : Nat
  slots : Nat
  maxFilters : Nat
  interpolants : Nat

/-- The limits as documented (`interpolating_convolver_uniform.hpp:40-69`): every routing can have its own interpolated filter. -/
def documented (inputs outputs block maxLen maxRoutings maxFilters interpolants : Nat) : Limits :=
  ⟨inputs, outputs, block, maxLen, maxRoutings, maxRoutings, maxFilters, interpolants⟩

/-- The limits that are in force: the size of the routing table is taken from the size of the database. -/
def inForce (inputs outputs block maxLen maxRoutings maxFilters interpolants : Nat) : Limits :=
  ⟨inputs, outputs, block, maxLen, maxFilters, maxRoutings, maxFilters, interpolants⟩

/-- The limits of the crossfading convolver inside. -/
def Limits.dims (d : Limits) : Dims := ⟨d.inputs, d.outputs, d.block, d.maxLen, d.maxRoutings, d.slots⟩

/-- The weighted sum of impulse responses, padded with zeros to `len` samples. -/
def blend (len : Nat) (filters : Nat → List K) (p : InterpParam.Param K) : List K :=
  (List.range len).map fun n => ((p.indices.zip p.weights).map fun x => x.2 * (filters x.1).getD n 0).sum

/-- Database, and the running crossfading convolver. -/
structure Sys (K : Type) where
  filters : Nat → List K
  run : Crossfade.Sys K

/-- A new interpolated filter: the slot with the id of the parameter crossfades to the blend of the filters stored now. Later
changes of the database have no effect on it. -/
def Sys.setInterpolant (d : Limits) (s : Sys K) (p : InterpParam.Param K) (start : Bool) : Outcome (Sys K) :=
  if p.id ≥ d.maxRoutings then .throw .outOfRange
  else if p.weights.length ≠ d.interpolants then .throw .invalidArgument
  else if ∃ i ∈ p.indices, d.maxFilters ≤ i then .throw .runtimeError
  else .ok { s with run := s.run.setFilter (blend d.maxLen s.filters p) p.id start }

/-- Several interpolants, up to the first one that is rejected. -/
def Sys.setInterpolants (d : Limits) (s : Sys K) (start : Bool) : List (InterpParam.Param K) → Sys K × Outcome Unit
  | [] => (s, .ok ())
  | p :: ps =>
    match s.setInterpolant d p start with
    | .ok s' => s'.setInterpolants d start ps
    | .throw e => (s, .throw e)
    | .ub => (s, .ub)

/-- A call that is one of the crossfading convolver. -/
def Sys.forward (F : Type) (d : Limits) (T : Nat) (s : Sys K) (op : Crossfade.Op K F) : Sys K × Outcome (Res K) :=
  let r := Crossfade.Sys.step d.dims T s.run op
  ({ s with run := r.1 }, r.2)

/-- Effect and result of a call. -/
def Sys.step (F : Type) (d : Limits) (T : Nat) (s : Sys K) : Op K → Sys K × Outcome (Res K)
  | .setImpulseResponse ir idx =>
    if idx < d.maxFilters ∧ ir.length ≤ d.maxLen then
      ({ s with filters := fun f => if f = idx then ir else s.filters f }, .ok .unit)
    else (s, .throw .invalidArgument)
  | .initFilters rows cols m =>
    if rows ≤ d.maxFilters ∧ cols ≤ d.maxLen then ({ s with filters := rowFilters rows cols m }, .ok .unit)
    else (s, .throw .invalidArgument)
  | .clearFilters => (⟨fun _ => [], (Crossfade.Sys.step (F := F) d.dims T s.run .clearFilters).1⟩, .ok .unit)
  | .clearInterpolants => ({ s with run := (Crossfade.Sys.step (F := F) d.dims T s.run .clearFilters).1 }, .ok .unit)
  | .setInterpolant p start =>
    match s.setInterpolant d p start with
    | .ok s' => (s', .ok .unit)
    | .throw e => (s, .throw e)
    | .ub => (s, .ub)
  | .setInterpolants ps start =>
    let r := s.setInterpolants d start ps
    (r.1, r.2.map fun _ => .unit)
  | .setRouting e => s.forward F d T (.setRouting e)
  | .removeRouting i o => s.forward F d T (.removeRouting i o)
  | .clearRoutings => s.forward F d T .clearRoutings
  | .initRoutings es => s.forward F d T (.initRoutings es)
  | .process data => s.forward F d T (.process data)

/-- State after construction, before the initial interpolants: no interpolated filters, all transitions finished. -/
def Sys.init (d : Limits) (T : Nat) (routings : List (Entry K)) (rows cols : Nat) (m : Nat → Nat → K) : Sys K :=
  ⟨rowFilters rows cols m, Crossfade.Sys.init d.dims T routings 0 0 fun _ _ => 0⟩

/-- Interpolation parameters covered: as many indices as weights (which the constructors and setters of the parameter class
ensure, see C42), and an id that denotes a slot or is rejected. -/
def ParamOK (d : Limits) (p : InterpParam.Param K) : Prop :=
  p.indices.length = p.weights.length ∧ (p.id < d.slots ∨ d.maxRoutings ≤ p.id)

/-- Calls covered: routings with a valid filter index; no removal of routings. -/
def OpOK (d : Limits) : Op K → Prop
  | .setInterpolant p _ => ParamOK d p
  | .setInterpolants ps _ => ∀ p ∈ ps, ParamOK d p
  | .setRouting e => e.filter < d.slots
  | .initRoutings es => ∀ e ∈ es, e.filter < d.slots
  | .removeRouting _ _ => False
  | _ => True

end Visr.InterpConvolver
