import Verif.Convolver.Model
import Mathlib.Algebra.BigOperators.Group.Finset.Basic

/-!
# Specification of the multichannel convolver

No blocks, partitions or transforms: impulse responses, a table of routings with at most one entry per pair of input and
output, and the complete input streams.
-/

namespace Visr.Convolver
open Visr

variable {K : Type*} [Field K]

/-- Sample `n` of the linear convolution of an impulse response and a signal. -/
def conv (h x : List K) (n : Nat) : K :=
  ∑ t ∈ Finset.range h.length, h.getD t 0 * (if t ≤ n then x.getD (n - t) 0 else 0)

/-- Fixed parameters of a convolver. -/
structure Dims where
  inputs : Nat
  outputs : Nat
  block : Nat
  maxLen : Nat
  maxRoutings : Nat
  entries : Nat

/-- Filters, routings, and the input streams so far, of `time` samples. -/
structure Sys (K : Type*) where
  filters : Nat → List K
  routes : List (Entry K)
  streams : Nat → List K
  time : Nat

/-- Sample `n` of output `o`: the sum over the routings to this output. -/
def Sys.sample (s : Sys K) (o n : Nat) : K :=
  ((s.routes.filter fun e => e.output = o).map fun e => e.gain * conv (s.filters e.filter) (s.streams e.input) n).sum

/-- Valid indices of a routing. -/
def Dims.admits (d : Dims) (e : Entry K) : Prop := e.input < d.inputs ∧ e.output < d.outputs ∧ e.filter < d.entries

instance (d : Dims) (e : Entry K) : Decidable (d.admits e) := by unfold Dims.admits; infer_instance

/-- The other routings. -/
def others (e : Entry K) (routes : List (Entry K)) : List (Entry K) :=
  routes.filter fun x => ¬ (x.input = e.input ∧ x.output = e.output)

/-- Add or replace a routing; `none`: rejected. -/
def setRoute (d : Dims) (routes : List (Entry K)) (e : Entry K) : Option (List (Entry K)) :=
  if d.admits e ∧ (others e routes).length < d.maxRoutings then some (e :: others e routes) else none

/-- Add routings until one is rejected. -/
def setRoutes (d : Dims) (routes : List (Entry K)) : List (Entry K) → List (Entry K) × Outcome Unit
  | [] => (routes, .ok ())
  | e :: es =>
    match setRoute d routes e with
    | some r => setRoutes d r es
    | none => (routes, .throw .invalidArgument)

/-- Replace all routings. If there are too many, none are left. -/
def replaceRoutes (d : Dims) (es : List (Entry K)) : List (Entry K) × Outcome Unit :=
  if es.length > d.maxRoutings then ([], .throw .invalidArgument) else setRoutes d [] es

/-- Impulse responses given by the rows of a matrix. -/
def rowFilters (rows cols : Nat) (m : Nat → Nat → K) : Nat → List K :=
  fun f => if f < rows then (List.range cols).map (m f) else []

/-- Effect and result of a call. `removeRouting` is not specified here, see `remove_existing_ub`. -/
def Sys.step (d : Dims) (s : Sys K) : Op K → Sys K × Outcome (Res K)
  | .setImpulseResponse ir idx =>
    if idx < d.entries ∧ ir.length ≤ d.maxLen then
      ({ s with filters := fun f => if f = idx then ir else s.filters f }, .ok .unit)
    else (s, .throw .invalidArgument)
  | .initFilters rows cols m =>
    if rows ≤ d.entries ∧ cols ≤ d.maxLen then ({ s with filters := rowFilters rows cols m }, .ok .unit)
    else ({ s with filters := fun _ => [] }, .throw .invalidArgument)
  | .clearFilters => ({ s with filters := fun _ => [] }, .ok .unit)
  | .setRouting e =>
    match setRoute d s.routes e with
    | some r => ({ s with routes := r }, .ok .unit)
    | none => (s, .throw .invalidArgument)
  | .removeRouting _ _ => (s, .ub)
  | .clearRoutings => ({ s with routes := [] }, .ok .unit)
  | .initRoutings es =>
    let r := replaceRoutes d es
    ({ s with routes := r.1 }, r.2.map fun _ => .unit)
  | .process data =>
    let s' := { s with streams := fun ch => s.streams ch ++ (List.range d.block).map (data ch), time := s.time + d.block }
    (s', .ok (.signals ((List.range d.outputs).map fun o => (List.range d.block).map fun i => s'.sample o (s.time + i))))

/-- Calls other than the removal of a routing. -/
def OpOK : Op K → Prop
  | .removeRouting _ _ => False
  | _ => True

end Visr.Convolver
