import Verif.FlexibleBuffer.Model
import Verif.Efl.Matrix

/-!
# NumPy arrays: samples and matrices passed from and to Python

`/repo/src/python/rrl/audio_signal_flow.cpp`, `/repo/src/python/rrl/flexible_buffer_wrapper.cpp`,
`/repo/src/python/efl/basic_matrix.cpp`, `/repo/src/python/efl/basic_vector.cpp`, `/repo/src/python/pml/matrix_parameter.cpp` and
`/repo/src/python/libpythonbindinghelpers/*_ndarray*.hpp`.

Conventions and simplifications: memory is addressed by bytes, with addresses and strides modulo `2 ^ 64`; the value of the sample
at an address is a function of the address, and undefined outside of the arrays. An array is a NumPy array (other arguments are
rejected by pybind11). Exceptions are those of the C++ code, which pybind11 translates: `invalid_argument` to `ValueError`,
`out_of_range` to `IndexError`, others to `RuntimeError`. Assertions of debug builds are not modelled.
-/

namespace Visr.NdArray

open Visr

variable {K : Type} {σ : Type}

/-- The samples in memory, by the address of the first byte. -/
abbrev Memory (K : Type) := BitVec 64 → Option K

/-- A NumPy array: whether the type of the elements is the one of the samples (`dtype().is(…)`), address of the first element,
numbers of elements, and strides in bytes. -/
structure Nd where
  typeOk : Bool
  base : BitVec 64
  shape : List Nat
  strides : List Int

/-- `strides( k ) / sizeof( T )`: the stride is converted to an unsigned number (`audio_signal_flow.cpp` lines 62-63,
`flexible_buffer_wrapper.cpp` lines 78-79, `basic_vector.cpp` line 36). -/
def elementStride (size : BitVec 64) (s : Int) : BitVec 64 := BitVec.ofInt 64 s / size

/-- The samples that are read from `p`, `p + stride`, …, as `efl::vectorCopyStrided` does (`/repo/src/libefl/reference/vector_functions_impl.hpp`
lines 338-350). -/
def readStrided (mem : Memory K) (size stride : BitVec 64) : Nat → BitVec 64 → Outcome (List K)
  | 0, _ => .ok []
  | n + 1, p =>
    match mem p with
    | none => .ub
    | some v =>
      match readStrided mem size stride n (p + size * stride) with
      | .ok vs => .ok (v :: vs)
      | .throw e => .throw e
      | .ub => .ub

/-- The loop over the capture channels `ch, …, ch + k - 1`: `/repo/src/librrl/audio_signal_flow.cpp` lines 188-198. -/
def readChannels (mem : Memory K) (size base channelStride sampleStride : BitVec 64) (n : Nat) : Nat → Nat → Outcome (List (List K))
  | 0, _ => .ok []
  | k + 1, ch =>
    match readStrided mem size sampleStride n (base + size * (BitVec.ofNat 64 ch * channelStride)) with
    | .ok r =>
      match readChannels mem size base channelStride sampleStride n k (ch + 1) with
      | .ok rs => .ok (r :: rs)
      | .throw e => .throw e
      | .ub => .ub
    | .throw e => .throw e
    | .ub => .ub

/-- Samples stored at `pos`, `pos + stride`, … of a new array (`vectorCopyStrided`). -/
def writeStrided (stride : Nat) : List K → Nat → List K → Outcome (List K)
  | [], _, out => .ok out
  | v :: vs, pos, out => if pos < out.length then writeStrided stride vs (pos + stride) (out.set pos v) else .ub

/-- The loop over the playback channels `ch, …, ch + k - 1`: `/repo/src/librrl/audio_signal_flow.cpp` lines 207-217. -/
def writeChannels (channelStride sampleStride n : Nat) (y : Nat → Nat → K) : Nat → Nat → List K → Outcome (List K)
  | 0, _, out => .ok out
  | k + 1, ch, out =>
    match writeStrided sampleStride ((List.range n).map (y ch)) (ch * channelStride) out with
    | .ok out' => writeChannels channelStride sampleStride n y k (ch + 1) out'
    | .throw e => .throw e
    | .ub => .ub

/-- A new array: numbers of elements, strides in bytes, and the elements of its memory. -/
structure New (K : Type) where
  shape : List Nat
  strides : List Nat
  cells : List K

/-- The array for the output: `audio_signal_flow.cpp` lines 52-55, `flexible_buffer_wrapper.cpp` lines 63-68. The contents are arbitrary
(`junk`). NumPy refuses arrays that are too large. -/
def newArray (size : BitVec 64) (channels n : Nat) (junk : K) : Outcome (New K) :=
  if channels * n * size.toNat < 2 ^ 63 ∧ n * size.toNat < 2 ^ 63 then
    .ok ⟨[channels, n], [size.toNat * n, size.toNat], List.replicate (channels * n) junk⟩
  else .throw .badAlloc

/-- The tests of `wrapProcess` and of the Python version of `FlexibleBufferWrapper::process`: `audio_signal_flow.cpp` lines 35-46,
`flexible_buffer_wrapper.cpp` lines 43-60. -/
def typeAndChannels (channels : Nat) (a : Nd) : Bool :=
  a.typeOk && a.shape.length = 2 && a.shape.headD 0 = channels

/-- `wrapProcess`: `audio_signal_flow.cpp` lines 31-75. `AudioSignalFlow::process` with strides is
`/repo/src/librrl/audio_signal_flow.cpp` lines 181-218. The result is the state of the flow and the returned array. -/
def wrapProcess (F : FlexibleBuffer.Flow σ K) (size : BitVec 64) (mem : Memory K) (junk : K) (s : σ) (a : Nd) :
    σ × Outcome (New K) :=
  if typeAndChannels F.captureCh a = false then (s, .throw .invalidArgument)
  else if a.shape.getD 1 0 ≠ F.period then (s, .throw .invalidArgument)
  else
    match newArray size F.playbackCh F.period junk with
    | .ok out =>
      let outChannelStride := out.strides.headD 0 / size.toNat
      let outSampleStride := out.strides.getD 1 0 / size.toNat
      match readChannels mem size a.base (elementStride size (a.strides.headD 0)) (elementStride size (a.strides.getD 1 0)) F.period
        F.captureCh 0 with
      | .ok input =>
        match F.proc s input with
        | (s', .ok y) =>
          match writeChannels outChannelStride outSampleStride F.period y F.playbackCh 0 out.cells with
          | .ok cells => (s', .ok { out with cells := cells })
          | .throw _ => (s', .throw .invalidArgument)
          | .ub => (s', .ub)
        | (s', .throw _) => (s', .throw .invalidArgument) -- lines 68-73
        | (s', .ub) => (s', .ub)
      | .throw _ => (s, .throw .invalidArgument)
      | .ub => (s, .ub)
    | .throw e => (s, .throw e)
    | .ub => (s, .ub)

/-- The array without rows of `process()` without arguments: `audio_signal_flow.cpp` lines 169-170 (`c_strides`: `numpy.h`). -/
def dummy (size : BitVec 64) (n : Nat) : Nd := ⟨true, 0, [0, n], [size.toNat * n, size.toNat]⟩

/-- `process()` without arguments: `audio_signal_flow.cpp` lines 166-173. -/
def processNoInput (F : FlexibleBuffer.Flow σ K) (size : BitVec 64) (mem : Memory K) (junk : K) (s : σ) : σ × Outcome (New K) :=
  wrapProcess F size mem junk s (dummy size F.period)

/-- `FlexibleBufferWrapper::process` of the Python module: `flexible_buffer_wrapper.cpp` lines 37-94. Sample `( ch, i )` is read at
`base + ch * channelStride + i * sampleStride` (`/repo/src/librrl/flexible_buffer_wrapper.cpp` lines 132-141). Simplification: all
samples are read at the beginning (the original reads them chunk by chunk, and not all of them if the flow throws). -/
def wrapFlexible (F : FlexibleBuffer.Flow σ K) (size : BitVec 64) (mem : Memory K) (junk : K) (w : FlexibleBuffer.Wrapper σ K) (a : Nd) :
    FlexibleBuffer.Wrapper σ K × Outcome (New K) :=
  if typeAndChannels F.captureCh a = false then (w, .throw .invalidArgument)
  else
    let n := a.shape.getD 1 0
    match newArray size F.playbackCh n junk with
    | .ok out =>
      let outChannelStride := out.strides.headD 0 / size.toNat
      let outSampleStride := out.strides.getD 1 0 / size.toNat
      match readChannels mem size a.base (elementStride size (a.strides.headD 0)) (elementStride size (a.strides.getD 1 0)) n
        F.captureCh 0 with
      | .ok input =>
        match FlexibleBuffer.loop F (fun ch i => (input.getD ch []).getD i junk) n w 0 n with
        | (w', .ok chunks) =>
          let cells := chunks.foldl (fun m c => FlexibleBuffer.storeChannels outChannelStride outSampleStride m c.1 c.2) fun _ => junk
          (w', .ok { out with cells := (List.range (F.playbackCh * n)).map cells })
        | (w', .throw _) => (w', .throw .invalidArgument)
        | (w', .ub) => (w', .ub)
      | .throw _ => (w, .throw .invalidArgument)
      | .ub => (w, .ub)
    | .throw e => (w, .throw e)
    | .ub => (w, .ub)

/-! ### Matrices and vectors -/

/-- `array.data( i, j )`: pybind11's `numpy.h` (`byte_offset`), for indices inside of the array. -/
def readAt (mem : Memory K) (a : Nd) (i j : Nat) : Outcome K :=
  match mem (a.base + BitVec.ofInt 64 (i * a.strides.headD 0 + j * a.strides.getD 1 0)) with
  | some v => .ok v
  | none => .ub

/-- The loop over the columns: `basic_matrix.cpp` lines 49-52, `matrix_from_ndarray.hpp` lines 40-43. -/
def fillColumns (mem : Memory K) (a : Nd) (row : Nat) : Nat → Nat → Efl.Mat K → Outcome (Efl.Mat K)
  | 0, _, m => .ok m
  | k + 1, col, m => do
    let v ← readAt mem a row col
    let m' ← m.put row col v
    fillColumns mem a row k (col + 1) m'

/-- The loop over the rows: `basic_matrix.cpp` lines 47-53, `matrix_from_ndarray.hpp` lines 38-44. -/
def fillRows (mem : Memory K) (a : Nd) (cols : Nat) : Nat → Nat → Efl.Mat K → Outcome (Efl.Mat K)
  | 0, _, m => .ok m
  | k + 1, row, m => do
    let m' ← fillColumns mem a row cols 0 m
    fillRows mem a cols k (row + 1) m'

/-- A matrix from an array: `basic_matrix.cpp` lines 34-55, `matrix_from_ndarray.hpp` lines 23-46 and, with a test of the indices that
succeeds, `matrix_parameter.cpp` lines 45-66. -/
def matrixFrom [Zero K] (mem : Memory K) (a : Nd) (alignment : Nat) : Outcome (Efl.Mat K) :=
  if a.shape.length ≠ 2 then .throw .invalidArgument
  else if a.typeOk = false then .throw .invalidArgument
  else do
    let m ← Efl.Mat.create (a.shape.headD 0) (a.shape.getD 1 0) alignment
    fillRows mem a (a.shape.getD 1 0) (a.shape.headD 0) 0 m

/-- The array of a matrix whose storage is at `base` (buffer protocol): `basic_matrix.cpp` lines 23-31, `matrix_parameter.cpp`
lines 31-40, `ndarray_from_basic_matrix.hpp` lines 28-30. -/
def viewOf (size : BitVec 64) (base : BitVec 64) (m : Efl.Mat K) : Nd :=
  ⟨true, base, [m.rows, m.cols], [size.toNat * m.stride, size.toNat]⟩

/-- The memory with the storage of a matrix at `base`. -/
def memoryOf (size : BitVec 64) (base : BitVec 64) (m : Efl.Mat K) : Memory K := fun p =>
  if (p - base).toNat % size.toNat = 0 ∧ (p - base).toNat / size.toNat < m.size then some (m.data ((p - base).toNat / size.toNat)) else none

/-- `setData`, the method `set` of vectors: `basic_vector.cpp` lines 25-43. The vector is the list of its elements. -/
def setData (mem : Memory K) (size : BitVec 64) (v : List K) (a : Nd) : Outcome (List K) :=
  if a.shape.length ≠ 1 ∨ a.shape.headD 0 ≠ v.length then .throw .invalidArgument
  else readStrided mem size (elementStride size (a.strides.headD 0)) v.length a.base

/-- An index in Python: the numbers of a tuple, converted to `std::size_t`; negative numbers are rejected (`cast_error`), and a
missing number is an `IndexError`. -/
def index (idx : List Int) : Outcome (Nat × Nat) :=
  match idx with
  | i :: j :: _ => if i < 0 ∨ j < 0 then .throw .runtimeError else .ok (i.toNat, j.toNat)
  | _ => .throw .outOfRange

/-- `__getitem__` of a matrix: `basic_matrix.cpp` line 62. -/
def getItem (m : Efl.Mat K) (idx : List Int) : Outcome K := do
  let (i, j) ← index idx
  m.at i j

/-- `__setitem__` of a matrix: `basic_matrix.cpp` line 63. -/
def setItem (m : Efl.Mat K) (idx : List Int) (v : K) : Outcome (Efl.Mat K) := do
  let (i, j) ← index idx
  m.setAt i j v

/-! ### Views of a matrix in Python -/

/-- A matrix and the number of its storage. `resize()` replaces the storage and frees the old one
(`/repo/src/libefl/basic_matrix.hpp` lines 89-104). -/
structure Obj (K : Type) where
  mat : Efl.Mat K
  storage : Nat

/-- An array that refers to the storage of a matrix (`numpy.asarray( m )`). -/
structure View where
  storage : Nat
  rows : Nat
  cols : Nat
  stride : Nat

/-- The buffer of a matrix: `basic_matrix.cpp` lines 23-31. -/
def Obj.view (o : Obj K) : View := ⟨o.storage, o.mat.rows, o.mat.cols, o.mat.stride⟩

/-- Reading element `(i, j)` of a view. -/
def View.get (v : View) (o : Obj K) (i j : Nat) : Outcome K :=
  if v.rows ≤ i ∨ v.cols ≤ j then .throw .outOfRange
  else if v.storage ≠ o.storage then .ub -- freed
  else if i * v.stride + j < o.mat.size then .ok (o.mat.data (i * v.stride + j)) else .ub

/-- Storing a value in element `(i, j)` of a view. -/
def View.set (v : View) (o : Obj K) (i j : Nat) (x : K) : Outcome (Obj K) :=
  if v.rows ≤ i ∨ v.cols ≤ j then .throw .outOfRange
  else if v.storage ≠ o.storage then .ub
  else if i * v.stride + j < o.mat.size then
    .ok { o with mat := { o.mat with data := fun k => if k = i * v.stride + j then x else o.mat.data k } }
  else .ub

/-- What a Python program does with a matrix. -/
inductive Action (K : Type) where
  | setItem (i j : Nat) (x : K)
  | fill (x : K)
  | resize (rows cols : Nat)

/-- The effect of an action; exceptions leave the matrix as it is. -/
def act [Zero K] (o : Obj K) : Action K → Outcome (Obj K)
  | .setItem i j x =>
    match o.mat.setAt i j x with
    | .ok m => .ok { o with mat := m }
    | .throw _ => .ok o
    | .ub => .ub
  | .fill x =>
    match o.mat.fill x with
    | .ok m => .ok { o with mat := m }
    | .throw _ => .ok o
    | .ub => .ub
  | .resize r c => .ok ⟨o.mat.resize r c, o.storage + 1⟩

/-- A sequence of actions. -/
def acts [Zero K] : Obj K → List (Action K) → Outcome (Obj K)
  | o, [] => .ok o
  | o, x :: xs => do
    let o' ← act o x
    acts o' xs

end Visr.NdArray
