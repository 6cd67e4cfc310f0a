import Verif.TFParameter.Model

/-!
# Time-frequency parameters in Python

Models `/repo/src/python/pml/time_frequency_parameter.cpp`. NumPy arrays arrive with the element type of the parameter
(`pybind11::array_t` converts them). Positions in the storage are natural numbers: indices whose products exceed `2 ^ 64` wrap in
the code and are undefined here.
-/

namespace Visr.TFParameter
open Visr Visr.Efl

variable {α : Type*}

/-- The indices of the three nested loops (`python/pml/time_frequency_parameter.cpp:73-86`), in the order of their visits. -/
def loopIndices (frames channels bins : Nat) : List (Nat × Nat × Nat) :=
  (List.range frames).flatMap fun f => (List.range channels).flatMap fun c => (List.range bins).map fun b => (f, c, b)

/-- The assignments of the loops (`python/pml/time_frequency_parameter.cpp:81-83`). -/
def assignAll (el : Nat → Nat → Nat → α) : List (Nat × Nat × Nat) → TF α → Outcome (TF α)
  | [], p => .ok p
  | (f, c, b) :: l, p =>
    match p.save (p.atPos f c b) (el f c b) with
    | .ok q => assignAll el l q
    | .throw e => .throw e
    | .ub => .ub

/-- Constructor from a NumPy array with the given shape and elements (`python/pml/time_frequency_parameter.cpp:56-88`). -/
def fromNdArray [Zero α] (shape : List Nat) (el : Nat → Nat → Nat → α) (align : Nat) : Outcome (TF α) :=
  match shape with
  | [frames, channels, bins] =>
    match TF.create bins channels frames align with
    | .ok p => assignAll el (loopIndices frames channels bins) p
    | .throw e => .throw e
    | .ub => .ub
  | _ => .throw .invalidArgument

/-- A `std::size_t` argument (`/repo/3rd/pybind11/include/pybind11/cast.h` lines 151-200): numbers below `2 ^ 64`. -/
def sizeT : Int → Option Nat
  | .ofNat n => if n < 2 ^ 64 then some n else none
  | .negSucc _ => none

/-- The indices of `__getitem__` and `__setitem__` (`python/pml/time_frequency_parameter.cpp:107-110`, `:115-119`): the first three
elements of a tuple. A missing element raises `IndexError`, a number that is no `std::size_t` cannot be converted. (If both are
the case, which exception is raised depends on the compiler.) -/
def indices : List Int → Outcome (Nat × Nat × Nat)
  | f :: c :: b :: _ => match sizeT f, sizeT c, sizeT b with
    | some f, some c, some b => .ok (f, c, b)
    | _, _, _ => .throw .badCast
  | _ => .throw .outOfRange

/-- `__getitem__` (`python/pml/time_frequency_parameter.cpp:105-112`). -/
def getItem (p : TF α) (idx : List Int) : Outcome α :=
  match indices idx with
  | .ok (f, c, b) => p.load (p.atPos f c b)
  | .throw e => .throw e
  | .ub => .ub

/-- `__setitem__` (`python/pml/time_frequency_parameter.cpp:113-121`). -/
def setItem (p : TF α) (idx : List Int) (v : α) : Outcome (TF α) :=
  match indices idx with
  | .ok (f, c, b) => p.save (p.atPos f c b) v
  | .throw e => .throw e
  | .ub => .ub

/-- The buffer (`python/pml/time_frequency_parameter.cpp:122-132`): shape and strides in elements. -/
def bufferInfo (p : TF α) : Outcome (List Nat × List Nat) :=
  match p.numberOfFrames with
  | .ok n => .ok ([n, p.channels, p.mat.cols], [p.frameStride, p.channelStride, 1])
  | .throw e => .throw e
  | .ub => .ub

/-- NumPy's access to an element of the buffer. -/
def bufferGet (p : TF α) (strides : List Nat) (idx : List Nat) : Outcome α :=
  p.load ((List.zipWith (· * ·) idx strides).sum)

end Visr.TFParameter
