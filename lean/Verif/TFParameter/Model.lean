import Verif.Efl.Matrix

/-!
# Model of `pml::TimeFrequencyParameter`

`/repo/src/libpml/time_frequency_parameter.{hpp,cpp}`.  The storage is the matrix model of
`Verif.Efl.Matrix`.  Products of the dimensions are natural numbers (they do not overflow for objects that fit
into memory).
-/

namespace Visr.TFParameter
open Visr Visr.Efl

variable {α : Type*}

/-- Data members (time_frequency_parameter.hpp:218-220). -/
structure TF (α : Type*) where
  mat : Mat α
  channels : Nat

/-- `TimeFrequencyParameter( alignment )` (time_frequency_parameter.cpp:22-28) with the empty matrix
(basic_matrix.hpp:35-41). -/
def TF.empty [Zero α] (align : Nat) : Outcome (TF α) :=
  if !alignmentAccepted align then .throw .invalidArgument
  else .ok ⟨⟨0, 0, 0, if align = 0 then 1 else align, 0, fun _ => 0⟩, 0⟩

/-- `TimeFrequencyParameter( numberOfDftBins, numberOfChannels, numberOfFrames, alignment )`
(time_frequency_parameter.cpp:44-54), also used for configurations (:37-42). -/
def TF.create [Zero α] (bins channels frames align : Nat) : Outcome (TF α) := do
  let m ← Mat.create (frames * channels) bins align
  let m ← m.fill 0
  return ⟨m, channels⟩

/-- Copy constructor (time_frequency_parameter.cpp:56-63). -/
def TF.copy [Zero α] (rhs : TF α) : Outcome (TF α) := do
  let m ← Mat.create rhs.mat.rows rhs.mat.cols rhs.mat.align
  let m ← m.copyFrom rhs.mat
  return ⟨m, rhs.channels⟩

/-- Assignment from another object (time_frequency_parameter.cpp:70-80). -/
def TF.assign [Zero α] (p rhs : TF α) : Outcome (TF α) := do
  let m ← (p.mat.resize rhs.mat.rows rhs.mat.cols).copyFrom rhs.mat
  return ⟨m, rhs.channels⟩

/-- `resize()` (time_frequency_parameter.cpp:83-89). -/
def TF.resize [Zero α] (p : TF α) (bins channels frames : Nat) : Outcome (TF α) := do
  let m ← (p.mat.resize (frames * channels) bins).fill 0
  return ⟨m, channels⟩

/-- `numberOfFrames()` (time_frequency_parameter.hpp:134): division by zero is undefined. -/
def TF.numberOfFrames (p : TF α) : Outcome Nat :=
  if p.channels = 0 then .ub else .ok (p.mat.rows / p.channels)

/-- `channelStride()` (time_frequency_parameter.hpp:139). -/
def TF.channelStride (p : TF α) : Nat := p.mat.stride

/-- `frameStride()` (time_frequency_parameter.hpp:145). -/
def TF.frameStride (p : TF α) : Nat := p.mat.stride * p.channels

/-- Position in the storage of the first element of `row()` (basic_matrix.hpp:211-213). -/
def rowPos (m : Mat α) (row : Nat) : Nat := row * m.stride

/-- Position accessed by `at()` (time_frequency_parameter.hpp:151-167). -/
def TF.atPos (p : TF α) (frame channel bin : Nat) : Nat := rowPos p.mat (frame * p.channels + channel) + bin

/-- Position of the pointer returned by `frameSlice()` (time_frequency_parameter.hpp:188-199). -/
def TF.frameSlice (p : TF α) (frame : Nat) : Nat := rowPos p.mat (frame * p.channels)

/-- Position of the pointer returned by `channelSlice()` (time_frequency_parameter.hpp:204-215). -/
def TF.channelSlice (p : TF α) (frame channel : Nat) : Nat := rowPos p.mat (frame * p.channels + channel)

/-- Reading through a pointer into the storage. -/
def TF.load (p : TF α) (pos : Nat) : Outcome α := if pos < p.mat.size then .ok (p.mat.data pos) else .ub

/-- Writing through a pointer into the storage. -/
def TF.save (p : TF α) (pos : Nat) (v : α) : Outcome (TF α) :=
  if pos < p.mat.size then .ok { p with mat := { p.mat with data := fun k => if k = pos then v else p.mat.data k } }
  else .ub

/-- `numberOfBinsRealToComplex()` (time_frequency_parameter.hpp:50-53). -/
def numberOfBinsRealToComplex (dftSize : Nat) : Nat := (dftSize + 2) / 2

/-- Operations of a program on its parameter objects. -/
inductive Op (α : Type*) where
  | empty (i align : Nat)
  | create (i bins channels frames align : Nat)
  | copy (i j : Nat)
  | assign (i j : Nat)
  | resize (i bins channels frames : Nat)
  | read (i frame channel bin : Nat)
  | write (i frame channel bin : Nat) (v : α)
  | numberOfFrames (i : Nat)
  | numberOfChannels (i : Nat)
  | numberOfDftBins (i : Nat)

/-- What a call returns. -/
inductive Result (α : Type*) where
  | nothing
  | elem (a : α)
  | number (n : Nat)

/-- Store the result of an operation on object `i`; failing operations leave the objects unchanged. -/
def keep {β : Type*} (s : Nat → Option β) (i : Nat) : Outcome β → (Nat → Option β) × Outcome (Result α)
  | .ok m => (setObj s i m, .ok .nothing)
  | .throw e => (s, .throw e)
  | .ub => (s, .ub)

/-- One operation. Naming a missing object does nothing. -/
def step [Zero α] (s : Nat → Option (TF α)) : Op α → (Nat → Option (TF α)) × Outcome (Result α)
  | .empty i align => keep s i (TF.empty align)
  | .create i bins channels frames align => keep s i (TF.create bins channels frames align)
  | .copy i j => match s j with
    | some rhs => keep s i rhs.copy
    | none => (s, .ok .nothing)
  | .assign i j => match s i, s j with
    | some p, some rhs => if i = j then (s, .ok .nothing) else keep s i (p.assign rhs)
    | _, _ => (s, .ok .nothing)
  | .resize i bins channels frames => match s i with
    | some p => keep s i (p.resize bins channels frames)
    | none => (s, .ok .nothing)
  | .read i frame channel bin => match s i with
    | some p => (s, (p.load (p.atPos frame channel bin)).map .elem)
    | none => (s, .ok .nothing)
  | .write i frame channel bin v => match s i with
    | some p => keep s i (p.save (p.atPos frame channel bin) v)
    | none => (s, .ok .nothing)
  | .numberOfFrames i => match s i with
    | some p => (s, p.numberOfFrames.map .number)
    | none => (s, .ok .nothing)
  | .numberOfChannels i => match s i with
    | some p => (s, .ok (.number p.channels))
    | none => (s, .ok .nothing)
  | .numberOfDftBins i => match s i with
    | some p => (s, .ok (.number p.mat.cols))
    | none => (s, .ok .nothing)

end Visr.TFParameter
