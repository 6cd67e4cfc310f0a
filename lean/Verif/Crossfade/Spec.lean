import Verif.Crossfade.Model
import Verif.Convolver.Spec

/-!
# Specification of the crossfading convolver

Every filter slot holds an old and a new impulse response and the number of samples since the last transition started.
-/

namespace Visr.Crossfade
open Visr Visr.Convolver

variable {K F : Type*} [Field K]

/-- Weight of the new filter for the sample with index `e` of a transition of `T` samples: rises linearly from `1/T` at the
first to `1` at the last transition sample. -/
def weight (T e : Nat) : K := if T ≤ e then 1 else ((e + 1 : Nat) : K) / (T : K)

/-- A filter slot. -/
structure Slot (K : Type*) where
  old : List K
  new : List K
  elapsed : Nat

/-- Slots, routings and input streams. -/
structure Sys (K : Type*) where
  slots : Nat → Slot K
  routes : List (Entry K)
  streams : Nat → List K
  time : Nat

/-- Sample `n` of output `o`, where `i` samples have been produced since the slots were last updated. -/
def Sys.sample (T : Nat) (s : Sys K) (o n i : Nat) : K :=
  ((s.routes.filter fun e => e.output = o).map fun e =>
    let slot := s.slots e.filter
    let r : K := weight T (slot.elapsed + i)
    e.gain * ((1 - r) * conv slot.old (s.streams e.input) n + r * conv slot.new (s.streams e.input) n)).sum

/-- A new impulse response for a slot: the previous one becomes the old one, also if its transition is not finished. -/
def Sys.setFilter (s : Sys K) (ir : List K) (idx : Nat) (start : Bool) : Sys K :=
  { s with slots := fun f => if f = idx then ⟨(s.slots f).new, ir, if start then 0 else (s.slots f).elapsed⟩ else s.slots f }

/-- Effect and result of a call; `d.entries` is the number of slots. `removeRouting`, and `initFilters` after construction, are
not specified (see the findings). -/
def Sys.step (d : Dims) (T : Nat) (s : Sys K) : Op K F → Sys K × Outcome (Res K)
  | .setImpulseResponse ir idx start | .setTransformed ir _ idx start =>
    if ir.length ≤ d.maxLen then (s.setFilter ir idx start, .ok .unit) else (s, .throw .invalidArgument)
  | .initFilters _ _ _ => (s, .ub)
  | .clearFilters => ({ s with slots := fun f => ⟨[], [], (s.slots f).elapsed⟩ }, .ok .unit)
  | .setRouting e =>
    match setRoute d s.routes e with
    | some r => ({ s with routes := r }, .ok .unit)
    | none => (s, .throw .invalidArgument)
  | .removeRouting _ _ => (s, .ub)
  | .clearRoutings => ({ s with routes := [] }, .ok .unit)
  | .initRoutings es =>
    let r := replaceRoutes d es
    ({ s with routes := r.1 }, r.2.map fun _ => .unit)
  | .process data =>
    let s1 := { s with streams := fun ch => s.streams ch ++ (List.range d.block).map (data ch), time := s.time + d.block }
    ({ s1 with slots := fun f => { s.slots f with elapsed := (s.slots f).elapsed + d.block } },
      .ok (.signals ((List.range d.outputs).map fun o => (List.range d.block).map fun i => s1.sample T o (s.time + i) i)))

/-- Initial state: all transitions are finished. -/
def Sys.init (d : Dims) (T : Nat) (routings : List (Entry K)) (rows cols : Nat) (m : Nat → Nat → K) : Sys K :=
  ⟨fun f => ⟨[], rowFilters rows cols m f, T⟩, (replaceRoutes d routings).1, fun _ => [], 0⟩

/-- Calls covered: filter indices below the number of slots; no removal of routings, and `initFilters` is only used by the
constructor. -/
def OpOK (d : Dims) : Op K F → Prop
  | .setImpulseResponse _ idx _ => idx < d.entries
  | .setTransformed _ _ idx _ => idx < d.entries
  | .setRouting e => e.filter < d.entries
  | .initRoutings es => ∀ e ∈ es, e.filter < d.entries
  | .removeRouting _ _ => False
  | .initFilters _ _ _ => False
  | _ => True

end Visr.Crossfade
