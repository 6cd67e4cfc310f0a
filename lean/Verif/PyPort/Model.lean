import Verif.NdArray.Model
import Verif.Efl.Aligned

/-!
# Audio ports of components written in Python

`/repo/src/python/visr/audio_port.cpp`: how a component written in Python reads its audio inputs and writes its audio outputs.

Conventions and simplifications: as in `Verif/NdArray/Model.lean`. One port is considered, with the memory that the signal flow
assigned to it. Arguments of `set` are arrays of the sample type of the port (pybind11 converts others to such arrays or rejects
them) that do not overlap with the memory of the port.
-/

namespace Visr.PyPort

open Visr Visr.NdArray

variable {K : Type}

/-- An audio port: `width()`, `channelStrideSamples()`, and the samples from `data()` on. -/
structure Port (K : Type) where
  width : Nat
  stride : Nat
  cells : List K

/-- The number of samples between channels (`/repo/src/librrl/audio_signal_flow.cpp:928-934`), for a block length and a size of the
samples in bytes; `cVectorAlignmentBytes` is 64 (`/repo/src/libvisr/constants.hpp:26`). The test of line 929 never fails for sample
sizes that divide 64. -/
def channelStride (blockSize size : Nat) : Nat := Efl.nextAlignedSize (blockSize * size) 64 / size

/-- A port after the initialisation of the flow, with the present contents of its memory. -/
def assigned (blockSize size width : Nat) (contents : Nat → Nat → K) : Port K where
  width := width
  stride := channelStride blockSize size
  cells := (List.range width).flatMap fun c => (List.range (channelStride blockSize size)).map (contents c)

/-- The samples of a channel, as `py::buffer_info` describes them (`audio_port.cpp:61-70,75-82`): one per sample of the stride. -/
def row (p : Port K) (c : Nat) : List K := (p.cells.drop (c * p.stride)).take p.stride

/-- `data()` of inputs and outputs (`audio_port.cpp:36-59`): the rows of the returned array. `py::array_t( info )` without base
object is a copy (`/repo/3rd/pybind11/include/pybind11/numpy.h:879-886`). -/
def data (p : Port K) : List (List K) := (List.range p.width).map (row p)

/-- `channel( index )` and `port[ index ]` (`audio_port.cpp:60-83,129-130,155-156`, `/repo/src/libvisr/audio_output.hpp:77-84`): a copy
as well. -/
def channel (p : Port K) (i : Nat) : Outcome (List K) := if p.width ≤ i then .throw .outOfRange else .ok (row p i)

/-- The loops of `setOutputBuffer` over the channels `ch, …, ch + k - 1` (`audio_port.cpp:100-108`); `n`: `bufferSize`. -/
def copyRows (mem : Memory K) (size base channelStride sampleStride : BitVec 64) (n : Nat) : Nat → Nat → List K → Outcome (List K)
  | 0, _, cells => .ok cells
  | k + 1, ch, cells =>
    match readStrided mem size sampleStride n (base + size * (channelStride * BitVec.ofNat 64 ch)) with
    | .ok r =>
      match writeStrided 1 r (ch * n) cells with
      | .ok cells' => copyRows mem size base channelStride sampleStride n k (ch + 1) cells'
      | .throw e => .throw e
      | .ub => .ub
    | .throw e => .throw e
    | .ub => .ub

/-- `set( matrix )` (`audio_port.cpp:85-110`). -/
def set (size : BitVec 64) (mem : Memory K) (p : Port K) (a : Nd) : Outcome (Port K) :=
  if a.shape.length ≠ 2 ∨ a.shape.headD 0 ≠ p.width ∨ a.shape.getD 1 0 ≠ p.stride then .throw .invalidArgument
  else
    match copyRows mem size a.base (elementStride size (a.strides.headD 0)) (elementStride size (a.strides.getD 1 0)) p.stride
      p.width 0 p.cells with
    | .ok cells => .ok { p with cells := cells }
    | .throw e => .throw e
    | .ub => .ub

/-- The port and the arrays that Python has obtained from it so far, each with its elements in order. -/
structure World (K : Type) where
  port : Port K
  arrays : List (List K)

/-- What happens next: Python obtains an array, or assigns an element of an array, or the flow changes the contents of the port. -/
inductive Op (K : Type) where
  | data
  | channel (i : Nat)
  | assign (array element : Nat) (value : K)
  | audio (cells : List K)

/-- One step; exceptions leave everything as it is. -/
def step (w : World K) : Op K → World K
  | .data => { w with arrays := w.arrays ++ [(PyPort.data w.port).flatten] }
  | .channel i =>
    match PyPort.channel w.port i with
    | .ok r => { w with arrays := w.arrays ++ [r] }
    | _ => w
  | .assign k j v =>
    match w.arrays[k]? with
    | some a => { w with arrays := w.arrays.set k (a.set j v) }
    | none => w
  | .audio cells => { w with port := { w.port with cells := cells } }

/-- Python's iteration over an object without `__iter__`: the indices 0, 1, … until an `IndexError`; at most `fuel` of them. The
result are the elements and the outcome, `none` if the iteration has not ended. -/
def iterate {α : Type} (get : Nat → Outcome α) : Nat → Nat → List α × Option (Outcome Unit)
  | 0, _ => ([], none)
  | n + 1, i =>
    match get i with
    | .ok x => (x :: (iterate get n (i + 1)).1, (iterate get n (i + 1)).2)
    | .throw e => ([], some (if e = .outOfRange then .ok () else .throw e))
    | .ub => ([], some .ub)

/-- `Position3D.__getitem__` (`/repo/src/python/rbbl/position_3d.cpp:56-57`, `/repo/src/librbbl/position_3d.hpp:70`): the index is
not checked. -/
def positionItem (x y z : K) : Nat → Outcome K
  | 0 => .ok x
  | 1 => .ok y
  | 2 => .ok z
  | _ => .ub

/-- `BiquadCoefficientMatrix.__getitem__` with one index (`/repo/src/python/rbbl/biquad_coefficient.cpp:135-136`,
`/repo/src/librbbl/biquad_coefficient.hpp:351`): `std::vector::operator[]` is not checked. -/
def biquadItem {α : Type} (rows : List α) (i : Nat) : Outcome α :=
  match rows[i]? with
  | some r => .ok r
  | none => .ub

end Visr.PyPort
