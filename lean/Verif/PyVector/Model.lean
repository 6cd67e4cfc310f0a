import Verif.VectorFn.Model
import Verif.Conversion.Model
import Verif.Biquad.Model

/-!
# The vector functions, called from Python

`/repo/src/python/efl/vector_functions.cpp`, `vector_conversions.cpp`, `filter_functions.cpp`, `check_error.hpp`,
`/repo/src/python/libpythonbindinghelpers/container_access.hpp`, and the selection of an overload by pybind11
(`/repo/3rd/pybind11/include/pybind11`).

Conventions and simplifications: the memory consists of separate arrays, as in `VectorFn/Model.lean`; the memory of an array
that pybind11 creates for a call is a new one.  Strides of NumPy arrays are counted in elements.  The address of an array is
suitable for its type.  Conversions between element types are a function `cast`.  Arguments are NumPy arrays, `BasicVector`s,
numbers and truth values; exceptions are those of the C++ code, which pybind11 translates (`invalid_argument` and `domain_error`
to `ValueError`, `runtime_error` to `RuntimeError`); here `.logicError` is `domain_error`, and `.badCast` is the `TypeError` if no
overload matches.
-/

namespace Visr.PyVector

open VectorFn

/-- The element types of the functions: `vector_functions.cpp` lines 431-432. -/
inductive Ty where
  | f32 | f64 | c64 | c128
  deriving DecidableEq

/-- Whether a type is one for complex numbers. -/
def Ty.isComplex : Ty → Bool
  | .f32 | .f64 => false
  | .c64 | .c128 => true

/-- `sizeof( T )`. -/
def Ty.size : Ty → BitVec 64
  | .f32 => 4
  | .f64 | .c64 => 8
  | .c128 => 16

/-- The element type of a NumPy array. -/
inductive DTy where
  | num (t : Ty)
  | other (name : Nat)
  deriving DecidableEq

/-- A NumPy array: where its first element is, the numbers of elements and the strides. -/
structure Arr where
  dtype : DTy
  ptr : Ptr
  shape : List Nat
  strides : List Int
  writeable : Bool

/-- An argument that is an array. -/
inductive Arg where
  | array (a : Arr)
  | vec (t : Ty) (obj : Nat) -- `BasicVector`, the owner of the memory `obj`

/-- A number. -/
inductive Scalar (K : Type u) where
  | float (v : K)
  | int (v : K)
  | complex (v : K)

/-- The containers of the functions: `vector_functions.cpp` lines 425-426. -/
inductive Container where
  | pyArray
  | basicVector
  deriving DecidableEq

/-- The overloads of a function, in the order of their registration: `vector_functions.cpp` lines 425-443. The
additional overloads of `vectorCopy` for integers and `long double` (lines 445-447) are not modelled. -/
def overloads : List (Container × Ty) :=
  [(.pyArray, .f32), (.pyArray, .f64), (.pyArray, .c64), (.pyArray, .c128),
   (.basicVector, .f32), (.basicVector, .f64), (.basicVector, .c64), (.basicVector, .c128)]

/-- The memory, and the first unused number of an array. -/
structure Mem (K : Type u) where
  heap : Heap K
  next : Nat

/-! ### The arguments of an overload -/

/-- A number as argument: `cast.h` lines 149-158 (real types; a complex number cannot be converted to `float` in Python),
`complex.h` lines 50-63. -/
def loadScalar (cast : Ty → K → K) (convert : Bool) (t : Ty) : Scalar K → Option K
  | .float v => if t.isComplex && !convert then none else some (cast t v)
  | .int v => if convert then some (cast t v) else none
  | .complex v => if t.isComplex then some (cast t v) else none

/-- The numbers among the arguments of a function. -/
def mapOp (f : A → Option B) : Op A → Option (Op B)
  | .zero => some .zero
  | .fill v => (f v).map .fill
  | .ramp s e si ei => do
    let s ← f s
    let e ← f e
    some (.ramp s e si ei)
  | .copy => some .copy
  | .add => some .add
  | .addInplace => some .addInplace
  | .addConstant c => (f c).map .addConstant
  | .addConstantInplace c => (f c).map .addConstantInplace
  | .subtract => some .subtract
  | .subtractInplace => some .subtractInplace
  | .subtractConstant c => (f c).map .subtractConstant
  | .subtractConstantInplace c => (f c).map .subtractConstantInplace
  | .multiply => some .multiply
  | .multiplyInplace => some .multiplyInplace
  | .multiplyConstant c => (f c).map .multiplyConstant
  | .multiplyConstantInplace c => (f c).map .multiplyConstantInplace
  | .multiplyAdd => some .multiplyAdd
  | .multiplyAddInplace => some .multiplyAddInplace
  | .multiplyConstantAdd c => (f c).map .multiplyConstantAdd
  | .multiplyConstantAddInplace c => (f c).map .multiplyConstantAddInplace
  | .rampScaling g r acc => do
    let g ← f g
    let r ← f r
    some (.rampScaling g r acc)

/-- A `std::size_t` argument: `cast.h` lines 151-200. -/
def loadSize (n : Int) : Option (BitVec 64) :=
  if 0 ≤ n ∧ n < 2 ^ 64 then some (BitVec.ofInt 64 n) else none

/-- The distances of the elements of an array from the first, row by row. -/
def offsets : List Nat → List Int → List Int
  | [], _ => [0]
  | n :: ns, ss => (List.range n).flatMap fun i => (offsets ns ss.tail).map (i * ss.headD 0 + ·)

/-- The strides of an array whose elements are stored row by row without gaps. -/
def rowStrides : List Nat → List Int
  | [] => []
  | _ :: ns => (ns.foldl (· * ·) 1 : Nat) :: rowStrides ns

/-- A converted copy of an array in new memory: NumPy's `PyArray_FromAny`, called in `numpy.h` lines 1296-1307. (For several
dimensions, NumPy can choose another order of the elements.) -/
def copied [Zero K] (cast : Ty → K → K) (t : Ty) (m : Mem K) (a : Arr) : Arr × Mem K :=
  (⟨.num t, ⟨m.next, 0⟩, a.shape, rowStrides a.shape, true⟩,
   ⟨fun o => if o = m.next then
      (offsets a.shape a.strides).map fun d => cast t ((m.heap a.ptr.obj).getD ((a.ptr.idx : Int) + d).toNat 0) else m.heap o,
    m.next + 1⟩)

/-- The NumPy array of a `BasicVector` (its buffer): `/repo/src/python/efl/basic_vector.cpp` lines 48-54. -/
def viewOf (m : Mem K) (t : Ty) (obj : Nat) : Arr := ⟨.num t, ⟨obj, 0⟩, [(m.heap obj).length], [1], true⟩

/-- An array as argument: `numpy.h` lines 1275-1307 and 1345-1351 for NumPy arrays; a `BasicVector` has to be of the type. -/
def loadArg [Zero K] (cast : Ty → K → K) (convert : Bool) (c : Container) (t : Ty) (m : Mem K) : Arg → Option (Arg × Mem K)
  | .array a =>
    match c with
    | .basicVector => none
    | .pyArray =>
      if a.dtype = .num t then some (.array a, m)
      else if convert then some (.array (copied cast t m a).1, (copied cast t m a).2)
      else none
  | .vec t' o =>
    match c with
    | .basicVector => if t' = t then some (.vec t' o, m) else none
    | .pyArray =>
      if convert = false then none
      else if t' = t then some (.array (viewOf m t o), m)
      else some (.array (copied cast t m (viewOf m t' o)).1, (copied cast t m (viewOf m t' o)).2)

/-- Several arrays as arguments, from the first to the last. -/
def loadArgs [Zero K] (cast : Ty → K → K) (convert : Bool) (c : Container) (t : Ty) : Mem K → List Arg → Option (List Arg × Mem K)
  | m, [] => some ([], m)
  | m, a :: as => do
    let (b, m1) ← loadArg cast convert c t m a
    let (bs, m2) ← loadArgs cast convert c t m1 as
    some (b :: bs, m2)

/-! ### The functions -/

/-- `ContainerAccess::mutablePointer` and `constantPointer`: `container_access.hpp` lines 48-66 and 72-107;
`mutable_data`: `numpy.h` lines 989-991. -/
def access (mutable : Bool) (m : Mem K) (requested : BitVec 64) : Arg → Outcome Ptr
  | .array a =>
    if a.shape.length ≠ 1 then .throw .invalidArgument
    else if a.strides.headD 0 ≠ 1 then .throw .invalidArgument
    else if (a.shape.headD 0 : Int) < requested.toInt then .throw .invalidArgument
    else if mutable && !a.writeable then .throw .logicError
    else .ok a.ptr
  | .vec _ o => if (m.heap o).length < requested.toNat then .throw .invalidArgument else .ok ⟨o, 0⟩

/-- The pointers to several arrays that are read. -/
def accessAll (m : Mem K) (requested : BitVec 64) : List Arg → Outcome (List Ptr)
  | [] => .ok []
  | a :: as => do
    let p ← access false m requested a
    let ps ← accessAll m requested as
    .ok (p :: ps)

/-- `checkError`: `check_error.hpp` lines 21-28. -/
def checkError : Code × Heap K → Outcome (Heap K)
  | (.noError, h) => .ok h
  | (.alignmentError, _) => .throw .runtimeError

/-- The body of the exported functions, e.g. `vector_functions.cpp` lines 97-104. -/
def body [Field K] (address : Nat → BitVec 64) (debug : Bool) (t : Ty) (m : Mem K) (op : Op K) (ins : List Arg) (out : Arg)
    (n alignment : BitVec 64) : Outcome (Mem K) := do
  let ps ← accessAll m n ins
  let p ← access true m n out
  let r ← op.call ⟨address, t.size⟩ debug m.heap ps p n.toNat alignment
  let h ← checkError r
  .ok { m with heap := h }

/-- The call of an overload if its arguments can be converted. -/
def tryCall [Field K] (cast : Ty → K → K) (address : Nat → BitVec 64) (debug convert : Bool) (c : Container) (t : Ty) (m : Mem K)
    (op : Op (Scalar K)) (ins : List Arg) (out : Arg) (n alignment : Int) : Option (Outcome (Mem K)) := do
  let op ← mapOp (loadScalar cast convert t) op
  let (ins, m1) ← loadArgs cast convert c t m ins
  let (out, m2) ← loadArg cast convert c t m1 out
  let n ← loadSize n
  let alignment ← loadSize alignment
  some (body address debug t m2 op ins out n alignment)

/-- A call from Python: the first overload whose arguments match without conversions, otherwise the first that matches with
conversions. `pybind11.h` lines 738-1010. -/
def call [Field K] (cast : Ty → K → K) (address : Nat → BitVec 64) (debug : Bool) (m : Mem K) (op : Op (Scalar K)) (ins : List Arg)
    (out : Arg) (n alignment : Int) : Outcome (Mem K) :=
  match overloads.findSome? fun ct => tryCall cast address debug false ct.1 ct.2 m op ins out n alignment with
  | some r => r
  | none =>
    match overloads.findSome? fun ct => tryCall cast address debug true ct.1 ct.2 m op ins out n alignment with
    | some r => r
    | none => .throw .badCast

/-! ### Functions with strides, after the selection of the overload -/

/-- `vectorCopyStrided`: `vector_functions.cpp` lines 65-74. -/
def copyStrided (address : Nat → BitVec 64) (t : Ty) (m : Mem K) (src dest : Arg)
    (srcStride destStride n alignment : BitVec 64) : Outcome (Mem K) := do
  let p ← access false m (n * srcStride) src
  let q ← access true m (n * destStride) dest
  let r ← vectorCopyStrided ⟨address, t.size⟩ m.heap p q srcStride.toNat destStride.toNat n.toNat alignment
  let h ← checkError r
  .ok { m with heap := h }

/-- The pointer of an array, as it is used in `Conversion/Model.lean`. -/
def pointer (address : Nat → BitVec 64) (size : BitVec 64) (p : Ptr) : Conversion.Pointer :=
  ⟨address p.obj + BitVec.ofNat 64 p.idx * size, p.idx⟩

/-- `vectorConvertInputOutputStride`: `vector_conversions.cpp` lines 106-115. `src` and `dest` are arrays of different types in
memories of these types. -/
def convertStrided (address : Nat → BitVec 64) (sizeIn sizeOut : BitVec 64) (conv : A → Outcome B) (mi : Mem A) (mo : Mem B)
    (src dest : Arg) (n inStride outStride alignment : BitVec 64) : Outcome (Mem B) := do
  let p ← access false mi n src
  let q ← access true mo n dest
  let r ← Conversion.convertInputOutputStride sizeIn sizeOut conv (mi.heap p.obj) (pointer address sizeIn p) (mo.heap q.obj)
    (pointer address sizeOut q) n.toNat inStride.toNat outStride.toNat alignment
  match r with
  | (.noError, d) => .ok { mo with heap := fun o => if o = q.obj then d else mo.heap o }
  | (.alignmentError, _) => .throw .runtimeError

/-- The memory that `iirFilterBiquadsSingleChannel` accesses for the states and the coefficients:
`/repo/src/libefl/reference/filter_functions_impl.hpp` lines 34-47 and 94-102. -/
def iirInside (states coeffs : List K) (n numSections stateStride coeffStride : Nat) : Bool :=
  (List.range numSections).all fun k =>
    k * stateStride + 1 < states.length && (n = 0 || k * coeffStride + 4 < coeffs.length)

/-- `iirFilterBiquadsSingleChannel`: `filter_functions.cpp` lines 38-53, for arrays that start at their memory and alignment 0. The
result are the output and the states. The output is another array than the input; it is undefined behaviour to access memory
outside of the arrays. -/
def iir [Field K] (input states coeffs : List K) (outSize : Nat) (n numSections stateStride coeffStride : BitVec 64) :
    Outcome (List K × (Nat → K)) :=
  if (input.length : Int) < n.toInt then .throw .invalidArgument
  else if (outSize : Int) < n.toInt then .throw .invalidArgument
  else if (states.length : Int) < (numSections * stateStride).toInt then .throw .invalidArgument
  else if (coeffs.length : Int) < (coeffStride * numSections).toInt then .throw .invalidArgument
  else if n.toNat ≤ input.length && n.toNat ≤ outSize &&
      iirInside states coeffs n.toNat numSections.toNat stateStride.toNat coeffStride.toNat then
    .ok (Biquad.iirFilterBiquadsSingleChannel (input.take n.toNat) (fun i => states.getD i 0) (fun i => coeffs.getD i 0)
      numSections.toNat stateStride.toNat coeffStride.toNat)
  else .ub

/-- The values of the parameters that are not given: `filter_functions.cpp` lines 54-57. -/
def iirDefault [Field K] (input states coeffs : List K) (outSize : Nat) (n numSections : BitVec 64) :
    Outcome (List K × (Nat → K)) :=
  iir input states coeffs outSize n numSections 2 0

end Visr.PyVector
