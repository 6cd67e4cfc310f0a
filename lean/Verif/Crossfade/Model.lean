import Verif.Convolver.Model
import Verif.Efl.Ramp

/-!
# Crossfading convolution

Models `src/librbbl/crossfading_convolver_uniform.{hpp,cpp}`, on top of the model of the core convolver. The same
simplifications apply.
-/

namespace Visr.Crossfade
open Visr Visr.Convolver

variable {K F : Type*} [Field K] [Field F] [Algebra K F]

/-- Data members of `CrossfadingConvolverUniform` (`crossfading_convolver_uniform.hpp:256-342`). `ramps0` and `ramps1` are the
rows of `mCrossoverRamps`. The vectors `mCurrentFilterOutput` and `mCurrentRampBlock` have `maxFilters` elements. -/
structure Xf (K F : Type*) where
  core : Core K F
  routes : Routes K
  maxFilters : Nat
  rampBlocks : Nat
  current : Nat → Nat
  rampBlock : Nat → Nat
  ramps0 : List K
  ramps1 : List K

/-- A row of `mCrossoverRamps` (`crossfading_convolver_uniform.cpp:49-82`): `transition` samples of a ramp, then the final
value. -/
def rampRow (transition total : Nat) (start stop : K) : List K :=
  Efl.vectorFillAt (Efl.vectorRamp (List.replicate total 0) transition start stop false true) transition
    (total - transition) stop

/-- Constructor (`crossfading_convolver_uniform.cpp:14-83`). The core convolver checks the block length first. -/
def Xf.create (inputs outputs block maxLen maxRoutings maxFilters transition : Nat) (routings : List (Entry K))
    (rows cols : Nat) (m : Nat → Nat → K) (align : Nat) (fft : Fft K F) : Outcome (Xf K F) :=
  match Core.create inputs outputs block maxLen (2 * maxFilters) rows cols m align fft with
  | .ok c =>
    let rampBlocks := (transition + block - 1) / block + 1
    match Routes.initTable ⟨inputs, outputs, c.entries, maxRoutings, []⟩ routings with
    | (r, .ok _) =>
      .ok { core := c, routes := r, maxFilters, rampBlocks
            current := fun _ => 0
            rampBlock := fun _ => rampBlocks - 1
            ramps0 := rampRow transition (block * rampBlocks) 0 1
            ramps1 := rampRow transition (block * rampBlocks) 1 0 }
    | (_, .throw e) => .throw e
    | (_, .ub) => .ub
  | .throw e => .throw e
  | .ub => .ub

/-- One iteration of the loop over the routings in `processOutputs` (`crossfading_convolver_uniform.cpp:117-170`); `out` are
the output signals. The vectors are accessed without a range check. -/
def Xf.routeStep (s : Xf K F) (out : Nat → Nat → K) (e : Entry K) : Outcome (Nat → Nat → K) :=
  if e.filter ≥ s.maxFilters then .ub
  else
    let fadeIn := if s.current e.filter = 0 then e.filter else e.filter + s.maxFilters
    let fadeOut := if s.current e.filter = 0 then e.filter + s.maxFilters else e.filter
    match s.core.processFilter e.input fadeIn e.gain (fun _ => 0) false with
    | .ok f0 =>
      match s.core.processFilter e.input fadeOut e.gain (fun _ => 0) false with
      | .ok f1 =>
        let t0 := s.core.transformOutput f0
        let t1 := s.core.transformOutput f1
        let pos := s.rampBlock e.filter * s.core.block
        let mixed : Nat → K := fun i =>
          s.ramps0.getD (pos + i) 0 * t0.getD i 0 + s.ramps1.getD (pos + i) 0 * t1.getD i 0
        .ok fun o => if o = e.output then fun i => out o i + mixed i else out o
      | .throw x => .throw x
      | .ub => .ub
    | .throw x => .throw x
    | .ub => .ub

/-- The loop over the routings. -/
def Xf.routeLoop (s : Xf K F) (out : Nat → Nat → K) : List (Entry K) → Outcome (Nat → Nat → K)
  | [] => .ok out
  | e :: es =>
    match s.routeStep out e with
    | .ok out' => s.routeLoop out' es
    | .throw x => .throw x
    | .ub => .ub

/-- `processOutputs` (`crossfading_convolver_uniform.cpp:101-177`), including the update of the ramp counters. -/
def Xf.processOutputs (s : Xf K F) : Xf K F × Outcome (List (List K)) :=
  match s.routeLoop (fun _ _ => 0) s.routes.table with
  | .ok out =>
    ({ s with rampBlock := fun f => min (s.rampBlock f + 1) (s.rampBlocks - 1) },
      .ok ((List.range s.core.outputs).map fun o => (List.range s.core.block).map (out o)))
  | .throw e => (s, .throw e)
  | .ub => (s, .ub)

/-- The common end of `setImpulseResponse` and `setTransformedFilter` (`crossfading_convolver_uniform.cpp:313-318, 340-344`). -/
def Xf.switch (s : Xf K F) (c : Core K F) (idx newSet : Nat) (start : Bool) : Xf K F :=
  { s with
    core := c
    current := fun f => if f = idx then newSet else s.current f
    rampBlock := fun f => if f = idx ∧ start then 0 else s.rampBlock f }

/-- `setImpulseResponse` (`crossfading_convolver_uniform.cpp:289-319`). Line 299 accesses the vector without a range check. -/
def Xf.setImpulseResponse (s : Xf K F) (ir : List K) (idx : Nat) (start : Bool) : Outcome (Xf K F) :=
  if idx ≥ s.maxFilters then .ub
  else
    let newSet := if s.current idx = 0 then 1 else 0
    let newIdx := if newSet = 0 then idx else idx + s.maxFilters
    match s.core.setImpulseResponse ir newIdx with
    | .ok c => .ok (s.switch c idx newSet start)
    | .throw e => .throw e
    | .ub => .ub

/-- `setTransformedFilter` (`crossfading_convolver_uniform.cpp:321-345`). -/
def Xf.setTransformedFilter (s : Xf K F) (fd : Nat → F) (idx : Nat) (start : Bool) : Outcome (Xf K F) :=
  if idx ≥ s.maxFilters then .ub
  else
    let newSet := if s.current idx = 0 then 1 else 0
    let newIdx := if newSet = 0 then idx else idx + s.maxFilters
    match s.core.setFilter fd newIdx with
    | .ok c => .ok (s.switch c idx newSet start)
    | .throw e => .throw e
    | .ub => .ub

/-- The calls a client can make. `setTransformed ir buffer idx start` is a call of `transformImpulseResponse` into a buffer with
the previous content `buffer`, followed by `setTransformedFilter` with the result. -/
inductive Op (K F : Type*) where
  | setImpulseResponse (ir : List K) (idx : Nat) (start : Bool)
  | setTransformed (ir : List K) (buffer : Nat → F) (idx : Nat) (start : Bool)
  | initFilters (rows cols : Nat) (m : Nat → Nat → K)
  | clearFilters
  | setRouting (e : Entry K)
  | removeRouting (input output : Nat)
  | clearRoutings
  | initRoutings (es : List (Entry K))
  | process (input : Nat → Nat → K)

/-- One call. -/
def Xf.step (s : Xf K F) : Op K F → Xf K F × Outcome (Res K)
  | .setImpulseResponse ir idx start =>
    match s.setImpulseResponse ir idx start with
    | .ok s' => (s', .ok .unit)
    | .throw e => (s, .throw e)
    | .ub => (s, .ub)
  | .setTransformed ir buffer idx start =>
    match s.core.transformImpulseResponse ir buffer with
    | .ok fd =>
      match s.setTransformedFilter fd idx start with
      | .ok s' => (s', .ok .unit)
      | .throw e => (s, .throw e)
      | .ub => (s, .ub)
    | .throw e => (s, .throw e)
    | .ub => (s, .ub)
  | .initFilters rows cols m =>
    let r := s.core.initFilters rows cols m
    ({ s with core := r.1 }, r.2.map fun _ => .unit)
  | .clearFilters => ({ s with core := s.core.clearFilters }, .ok .unit)
  | .setRouting e =>
    let r := s.routes.set e
    ({ s with routes := r.1 }, r.2.map fun _ => .unit)
  | .removeRouting i o =>
    let r := s.routes.remove i o 0 0
    ({ s with routes := r.1 }, r.2.map .flag)
  | .clearRoutings => ({ s with routes := s.routes.clear }, .ok .unit)
  | .initRoutings es =>
    let r := s.routes.initTable es
    ({ s with routes := r.1 }, r.2.map fun _ => .unit)
  | .process data =>
    match s.core.processInputs data with
    | .ok c =>
      let r := Xf.processOutputs { s with core := c }
      (r.1, r.2.map .signals)
    | .throw e => (s, .throw e)
    | .ub => (s, .ub)

end Visr.Crossfade
