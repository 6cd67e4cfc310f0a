import Verif.Run

/-!
# Levels and equalisers of objects

Models `/repo/src/librcl/object_gain_eq_calculator.cpp`. The component reads the object vector from a double-buffered
input and writes a vector of gains and a matrix of filter coefficients to two double-buffered outputs
(`/repo/src/libpml/double_buffering_protocol.cpp`, C08): it modifies the working buffer, and `swapBuffers()` exchanges
it with the buffer the receivers see.

The calculation of one section (`parametric_iir_coefficient_calculator.cpp:43-195`) is the parameter `design`; it is the
subject of C53. Objects are modelled by the three values the component reads.
-/

namespace Visr.ObjectEq
open Visr

variable {K S C : Type}

/-- What the component reads of an object: `level()`, `channelIndex( 0..numberOfChannels()-1 )`, `eqCoefficients()`. -/
structure Obj (K S : Type) where
  level : K
  channels : List Nat
  eq : List S

/-- Constants of the component: number of object channels, number of sections, calculation of one section, the flat
section, the gain zero. -/
structure Cfg (K S C : Type) where
  channels : Nat
  sections : Nat
  design : S → C
  flat : C
  zero : K

/-- The two buffers written by the component. -/
structure Buf (K C : Type) where
  gains : List K
  eqs : List (List C)

/-- Content of newly created parameters (`vector_parameter.cpp:35-39`: zeros;
`BiquadCoefficientMatrix( numberOfFilters, numberOfBiquads )`: flat sections). -/
def Buf.init (cfg : Cfg K S C) : Buf K C :=
  ⟨List.replicate cfg.channels cfg.zero, List.replicate cfg.channels (List.replicate cfg.sections cfg.flat)⟩

/-- `calculateIirCoefficients( params, coeffs, samplingFrequency )`
(`parametric_iir_coefficient_calculator.cpp:211-225`). -/
def designRow (cfg : Cfg K S C) (eq : List S) (row : List C) : Outcome (List C) :=
  if eq.length > row.length then .throw .invalidArgument
  else .ok (eq.map cfg.design ++ List.replicate (row.length - eq.length) cfg.flat)

/-- The loop over the channels of an object (`object_gain_eq_calculator.cpp:73-89`). `status( Error, … )` throws
(`component_implementation.cpp:73-82`). Returns the buffers as they are left, and the exception if there was one. -/
def channelLoop (cfg : Cfg K S C) (o : Obj K S) : List Nat → Buf K C → Buf K C × Option Exn
  | [], b => (b, none)
  | ch :: chs, b =>
    if ch ≥ cfg.channels then (b, some .runtimeError)
    else
      let b1 := { b with gains := b.gains.set ch o.level }
      match designRow cfg o.eq (b1.eqs.getD ch []) with
      | .ok row => channelLoop cfg o chs { b1 with eqs := b1.eqs.set ch row }
      | .throw e => (b1, some e)
      | .ub => (b1, some .logicError)

/-- The loop over the objects (`object_gain_eq_calculator.cpp:69-90`). -/
def objectLoop (cfg : Cfg K S C) : List (Obj K S) → Buf K C → Buf K C × Option Exn
  | [], b => (b, none)
  | o :: os, b =>
    match channelLoop cfg o o.channels b with
    | (b', none) => objectLoop cfg os b'
    | (b', some e) => (b', some e)

/-- `BiquadCoefficientMatrix::numberOfSections()` (`biquad_coefficient.hpp:351`). -/
def numberOfSections (eqs : List (List C)) : Nat :=
  match eqs with
  | [] => 0
  | r :: _ => r.length

/-- `process( objects, objectSignalGains, objectChannelEqs )` (`object_gain_eq_calculator.cpp:52-91`). -/
def calculate (cfg : Cfg K S C) (objects : List (Obj K S)) (b : Buf K C) : Buf K C × Option Exn :=
  if b.gains.length ≠ cfg.channels then (b, some .invalidArgument)
  else if b.eqs.length ≠ cfg.channels ∨ numberOfSections b.eqs ≠ cfg.sections then (b, some .invalidArgument)
  else objectLoop cfg objects { b with gains := List.replicate b.gains.length cfg.zero }

/-- State of the component and of its ports: the current object vector and whether it is marked as changed, the buffer
to be modified and the buffer the receivers see. -/
structure State (K S C : Type) where
  objects : List (Obj K S)
  changed : Bool
  work : Buf K C
  published : Buf K C

/-- State after construction. -/
def State.init (cfg : Cfg K S C) : State K S C := ⟨[], false, Buf.init cfg, Buf.init cfg⟩

/-- What happens to the component. -/
inductive Op (K S : Type) where
  /-- the sender publishes an object vector -/
  | scene (objects : List (Obj K S))
  /-- a call of `process()` -/
  | process

/-- One event; `process()` is `object_gain_eq_calculator.cpp:36-49`. -/
def step (cfg : Cfg K S C) (s : State K S C) : Op K S → State K S C × Outcome Unit
  | .scene objects => ({ s with objects := objects, changed := true }, .ok ())
  | .process =>
    if s.changed then
      match calculate cfg s.objects s.work with
      | (b, none) => ({ s with work := s.published, published := b, changed := false }, .ok ())
      | (b, some e) => ({ s with work := b }, .throw e)
    else (s, .ok ())

end Visr.ObjectEq
