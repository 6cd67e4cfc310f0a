import Verif.FirMatrix.Model
import Verif.InterpParam.Model

/-!
# Interpolating convolution

Models `src/librbbl/interpolating_convolver_uniform.{hpp,cpp}` on top of the model of the crossfading convolver, and
`process()` of `src/librcl/interpolating_fir_filter_matrix.cpp`. The simplifications of the convolver model apply: no rounding,
no alignment errors, scratch vectors (`mTempFilter`) are values. The weights have the type of the samples.
-/

namespace Visr.InterpConvolver
open Visr Visr.Convolver

variable {K F : Type} [Field K] [Field F] [Algebra K F]

/-- Data members (`interpolating_convolver_uniform.hpp:244-263`): `filters` is `mFilters`, with `filterRows` rows. -/
structure Ic (K F : Type) where
  conv : Crossfade.Xf K F
  filters : Nat → Nat → F
  filterRows : Nat
  interpolants : Nat

/-- `maxNumberOfRoutingPoints()` (`interpolating_convolver_uniform.hpp:98-101`): the one of the crossfading convolver. -/
def Ic.maxNumberOfRoutingPoints (s : Ic K F) : Nat := s.conv.routes.capacity

/-- The first loop of `initFilters` (`interpolating_convolver_uniform.cpp:199-204`), filters `0, …, n-1`. -/
def initLoop (c : Core K F) (cols : Nat) (m : Nat → Nat → K) (filters : Nat → Nat → F) : Nat → Outcome (Nat → Nat → F)
  | 0 => .ok filters
  | n + 1 =>
    match initLoop c cols m filters n with
    | .ok fs =>
      match c.transformImpulseResponse ((List.range cols).map (m n)) (fs n) with
      | .ok row => .ok (fun f => if f = n then row else fs f)
      | .throw e => .throw e
      | .ub => .ub
    | .throw e => .throw e
    | .ub => .ub

/-- `initFilters` (`interpolating_convolver_uniform.cpp:178-212`). Both checks come before the first change, and they imply that
the transformations do not throw. -/
def Ic.initFilters (s : Ic K F) (rows cols : Nat) (m : Nat → Nat → K) : Outcome (Ic K F) :=
  if rows > s.filterRows then .throw .invalidArgument
  else if cols > s.conv.core.maxLen then .throw .invalidArgument
  else
    match initLoop s.conv.core cols m s.filters rows with
    | .ok fs => .ok { s with filters := fun f => if rows ≤ f ∧ f < s.filterRows then fun _ => 0 else fs f }
    | .throw e => .throw e
    | .ub => .ub

/-- `setImpulseResponse` (`interpolating_convolver_uniform.cpp:214-239`). -/
def Ic.setImpulseResponse (s : Ic K F) (ir : List K) (idx : Nat) : Outcome (Ic K F) :=
  if idx ≥ s.filterRows then .throw .invalidArgument
  else if ir.length > s.conv.core.maxLen then .throw .invalidArgument
  else
    match s.conv.core.transformImpulseResponse ir (s.filters idx) with
    | .ok row => .ok { s with filters := fun f => if f = idx then row else s.filters f }
    | .throw e => .throw e
    | .ub => .ub

/-- `clearInterpolants` (`interpolating_convolver_uniform.cpp:336-340`). -/
def Ic.clearInterpolants (s : Ic K F) : Ic K F := { s with conv := { s.conv with core := s.conv.core.clearFilters } }

/-- `clearFilters` (`interpolating_convolver_uniform.cpp:170-176`). -/
def Ic.clearFilters (s : Ic K F) : Ic K F := Ic.clearInterpolants { s with filters := fun _ _ => 0 }

/-- The interpolation (`interpolating_convolver_uniform.cpp:285-321`): terms `0, …, n` in the order of the code;
`param.weight( i )` and `param.index( i )` are checked accesses. -/
def mixLoop (s : Ic K F) (p : InterpParam.Param K) : Nat → Outcome (Nat → F)
  | 0 =>
    match InterpParam.weight p 0, InterpParam.index p 0 with
    | .ok w, .ok i => .ok fun k => algebraMap K F w * s.filters i k
    | .throw e, _ => .throw e
    | _, .throw e => .throw e
    | _, _ => .ub
  | n + 1 =>
    match mixLoop s p n with
    | .ok acc =>
      match InterpParam.weight p (n + 1), InterpParam.index p (n + 1) with
      | .ok w, .ok i => .ok fun k => acc k + algebraMap K F w * s.filters i k
      | .throw e, _ => .throw e
      | _, .throw e => .throw e
      | _, _ => .ub
    | .throw e => .throw e
    | .ub => .ub

/-- `setInterpolant` (`interpolating_convolver_uniform.cpp:248-324`). `std::max_element` of an empty range must not be
dereferenced. The assertions of lines 259 and 260 are not modelled. -/
def Ic.setInterpolant (s : Ic K F) (p : InterpParam.Param K) (start : Bool) : Outcome (Ic K F) :=
  if p.id ≥ s.maxNumberOfRoutingPoints then .throw .outOfRange
  else if InterpParam.numberOfInterpolants p ≠ s.interpolants then .throw .invalidArgument
  else
    match p.indices.max? with
    | none => .ub
    | some maxIndex =>
      if maxIndex ≥ s.filterRows then .throw .runtimeError
      else
        match mixLoop s p (s.interpolants - 1) with
        | .ok fd =>
          match s.conv.setTransformedFilter fd p.id start with
          | .ok c => .ok { s with conv := c }
          | .throw e => .throw e
          | .ub => .ub
        | .throw e => .throw e
        | .ub => .ub

/-- `setInterpolants` (`interpolating_convolver_uniform.cpp:326-334`); returns the state also if it throws. -/
def Ic.setInterpolants (s : Ic K F) (start : Bool) : List (InterpParam.Param K) → Ic K F × Outcome Unit
  | [] => (s, .ok ())
  | p :: ps =>
    match s.setInterpolant p start with
    | .ok s' => s'.setInterpolants start ps
    | .throw e => (s, .throw e)
    | .ub => (s, .ub)

/-- Constructor (`interpolating_convolver_uniform.cpp:15-54`). Lines 36 and 37 pass `maxFilterEntries` for the parameter
`maxRoutingPoints` of the crossfading convolver and vice versa (`crossfading_convolver_uniform.cpp:20-21`). -/
def Ic.create (inputs outputs block maxLen maxRoutings maxFilters interpolants transition : Nat) (routings : List (Entry K))
    (initial : List (InterpParam.Param K)) (rows cols : Nat) (m : Nat → Nat → K) (align : Nat) (fft : Fft K F) :
    Outcome (Ic K F) :=
  match Crossfade.Xf.create inputs outputs block maxLen maxFilters maxRoutings transition routings 0 0 (fun _ _ => 0) align
      fft with
  | .ok c =>
    match Ic.initFilters ⟨c, fun _ _ => 0, maxFilters, interpolants⟩ rows cols m with
    | .ok s =>
      match s.setInterpolants false initial with
      | (s', .ok _) => .ok s'
      | (_, .throw e) => .throw e
      | (_, .ub) => .ub
    | .throw e => .throw e
    | .ub => .ub
  | .throw e => .throw e
  | .ub => .ub

/-- The calls a client can make. -/
inductive Op (K : Type) where
  | setImpulseResponse (ir : List K) (idx : Nat)
  | initFilters (rows cols : Nat) (m : Nat → Nat → K)
  | clearFilters
  | clearInterpolants
  | setInterpolant (p : InterpParam.Param K) (start : Bool)
  | setInterpolants (ps : List (InterpParam.Param K)) (start : Bool)
  | setRouting (e : Entry K)
  | removeRouting (input output : Nat)
  | clearRoutings
  | initRoutings (es : List (Entry K))
  | process (input : Nat → Nat → K)

/-- A call that either changes the state or fails without effect. -/
def Ic.attempt (s : Ic K F) : Outcome (Ic K F) → Ic K F × Outcome (Res K)
  | .ok s' => (s', .ok .unit)
  | .throw e => (s, .throw e)
  | .ub => (s, .ub)

/-- A call that is passed to the crossfading convolver (`interpolating_convolver_uniform.cpp:60-71, 133-168`). -/
def Ic.forward (s : Ic K F) (op : Crossfade.Op K F) : Ic K F × Outcome (Res K) :=
  let r := s.conv.step op
  ({ s with conv := r.1 }, r.2)

/-- One call. -/
def Ic.step (s : Ic K F) : Op K → Ic K F × Outcome (Res K)
  | .setImpulseResponse ir idx => s.attempt (s.setImpulseResponse ir idx)
  | .initFilters rows cols m => s.attempt (s.initFilters rows cols m)
  | .clearFilters => (s.clearFilters, .ok .unit)
  | .clearInterpolants => (s.clearInterpolants, .ok .unit)
  | .setInterpolant p start => s.attempt (s.setInterpolant p start)
  | .setInterpolants ps start =>
    let r := s.setInterpolants start ps
    (r.1, r.2.map fun _ => .unit)
  | .setRouting e => s.forward (.setRouting e)
  | .removeRouting i o => s.forward (.removeRouting i o)
  | .clearRoutings => s.forward .clearRoutings
  | .initRoutings es => s.forward (.initRoutings es)
  | .process data => s.forward (.process data)

/-! ## The component -/

/-- An `InterpolatingFirFilterMatrix` with its pending messages. -/
structure IFir (K F : Type) where
  conv : Ic K F
  filters : List (FirMatrix.FilterMsg K)
  interpolants : List (InterpParam.Param K)

/-- The loop over the interpolation messages (`interpolating_fir_filter_matrix.cpp:121-141`). The message is removed after the
call; if that throws, the handler throws again from `status` and the message stays. -/
def interpolantLoop : List (InterpParam.Param K) → Ic K F → Outcome Unit × List (InterpParam.Param K) × Ic K F
  | [], s => (.ok (), [], s)
  | p :: q, s =>
    match s.setInterpolant p true with
    | .ok s' => interpolantLoop q s'
    | .throw .cString => (.throw .cString, p :: q, s)
    | .throw _ => (.throw .runtimeError, p :: q, s)
    | .ub => (.ub, p :: q, s)

/-- `process()` (`interpolating_fir_filter_matrix.cpp:92-146`). The loop over the filter messages is that of the other filter
matrices. -/
def IFir.process (s : IFir K F) (input : Nat → Nat → K) : IFir K F × Outcome (Res K) :=
  match FirMatrix.filterLoop Ic.setImpulseResponse s.filters s.conv with
  | (.throw e, q, c) => ({ s with filters := q, conv := c }, .throw e)
  | (.ub, q, c) => ({ s with filters := q, conv := c }, .ub)
  | (.ok _, q, c) =>
    match interpolantLoop s.interpolants c with
    | (.throw e, q', c') => (⟨c', q, q'⟩, .throw e)
    | (.ub, q', c') => (⟨c', q, q'⟩, .ub)
    | (.ok _, q', c') =>
      let res := c'.step (.process input)
      (⟨res.1, q, q'⟩, res.2)

/-- One period: messages arrive and are queued, then `process()` is called. -/
def IFir.period (s : IFir K F) (filters : List (FirMatrix.FilterMsg K)) (interpolants : List (InterpParam.Param K))
    (input : Nat → Nat → K) : IFir K F × Outcome (Res K) :=
  IFir.process { s with filters := s.filters ++ filters, interpolants := s.interpolants ++ interpolants } input

end Visr.InterpConvolver
