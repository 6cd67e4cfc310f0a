import Verif.Outcome
import Verif.Efl.Aligned
import Mathlib.Algebra.Field.Basic

/-!
# Vector functions

`/repo/src/libefl/reference/vector_functions_impl.hpp`; the functions of `/repo/src/libefl/vector_functions.hpp` call them unless
a faster implementation is registered (`/repo/src/libefl/vector_functions.cpp` lines 47-56; see `Simd/Model.lean`).

Conventions and simplifications: the memory consists of separate arrays; a pointer is an array and an index, so pointers of a
call can point to the same array; an access outside the array is undefined.  Elements are elements of a field (exact, without
rounding).  The algorithms `std::fill`, `std::copy`, `std::transform`, `std::for_each` and `std::generate` are loops from the
first to the last element.
-/

namespace Visr.VectorFn

/-- The memory: the content of every array. -/
abbrev Heap (K : Type u) := Nat → List K

/-- A pointer: an array and an index. -/
structure Ptr where
  obj : Nat
  idx : Nat
  deriving DecidableEq

/-- The error codes: `/repo/src/libefl/error_codes.hpp`. -/
inductive Code where
  | noError
  | alignmentError
  deriving DecidableEq

/-- Where the arrays are, and the size of an element in bytes. -/
structure Layout where
  address : Nat → BitVec 64
  size : BitVec 64

/-- `checkAlignment` for a pointer: `/repo/src/libefl/alignment.hpp` lines 44-59. -/
def aligned (L : Layout) (alignment : BitVec 64) (p : Ptr) : Bool :=
  Efl.checkAlignment L.size (L.address p.obj + BitVec.ofNat 64 p.idx * L.size) alignment

/-- `p[ i ]`. -/
def read (h : Heap K) (p : Ptr) (i : Nat) : Outcome K :=
  match (h p.obj)[p.idx + i]? with
  | some v => .ok v
  | none => .ub

/-- `p[ i ]` for several pointers. -/
def readAll (h : Heap K) (i : Nat) : List Ptr → Outcome (List K)
  | [] => .ok []
  | p :: ps => do
    let v ← read h p i
    let vs ← readAll h i ps
    .ok (v :: vs)

/-- `p[ i ] = v`. -/
def write (h : Heap K) (p : Ptr) (i : Nat) (v : K) : Outcome (Heap K) :=
  if p.idx + i < (h p.obj).length then .ok fun o => if o = p.obj then (h o).set (p.idx + i) v else h o else .ub

/-- The common form of the loops: `out[ i ] = f( i, ins[ 0 ][ i ], … )`, `n` times from index `i`.
`vector_functions_impl.hpp`, e.g. lines 118-121. -/
def run (f : Nat → List K → K) (ins : List Ptr) (out : Ptr) : Nat → Nat → Heap K → Outcome (Heap K)
  | 0, _, h => .ok h
  | n + 1, i, h => do
    let vs ← readAll h i ins
    let h' ← write h out i (f i vs)
    run f ins out n (i + 1) h'

/-- The tests at the beginning of the functions, e.g. `vector_functions_impl.hpp` lines 100-102. -/
def checked (L : Layout) (alignment : BitVec 64) (ptrs : List Ptr) (h : Heap K) (body : Outcome (Heap K)) : Outcome (Code × Heap K) :=
  if ptrs.all (aligned L alignment) then do
    let h' ← body
    .ok (.noError, h')
  else .ok (.alignmentError, h)

section

variable [Field K] (L : Layout) (h : Heap K)

/-- `vectorZero`: `vector_functions_impl.hpp` lines 28-34. -/
def vectorZero (dest : Ptr) (n : Nat) (alignment : BitVec 64) : Outcome (Code × Heap K) :=
  checked L alignment [dest] h (run (fun _ _ => 0) [] dest n 0 h)

/-- `vectorFill`: `vector_functions_impl.hpp` lines 36-42. -/
def vectorFill (value : K) (dest : Ptr) (n : Nat) (alignment : BitVec 64) : Outcome (Code × Heap K) :=
  checked L alignment [dest] h (run (fun _ _ => value) [] dest n 0 h)

/-- The value of a ramp: `vector_functions_impl.hpp` lines 67-80. For a single element, the mean value of lines 70-73 is always
overwritten in line 74. -/
def rampValue (n : Nat) (startVal endVal : K) (startInclusive endInclusive : Bool) (i : Nat) : K :=
  if n = 1 then if startInclusive then startVal else endVal
  else
    let numSteps := n + 1 - (if startInclusive then 1 else 0) - (if endInclusive then 1 else 0)
    let step := (endVal - startVal) / (numSteps : K)
    startVal + ((if startInclusive then i else i + 1 : Nat) : K) * step

/-- `vectorRamp`: `vector_functions_impl.hpp` lines 61-82. -/
def vectorRamp (dest : Ptr) (n : Nat) (startVal endVal : K) (startInclusive endInclusive : Bool) (alignment : BitVec 64) :
    Outcome (Code × Heap K) :=
  checked L alignment [dest] h
    (run (fun i _ => rampValue n startVal endVal startInclusive endInclusive i) [] dest n 0 h)

/-- `vectorCopy`: `vector_functions_impl.hpp` lines 84-91. -/
def vectorCopy (source dest : Ptr) (n : Nat) (alignment : BitVec 64) : Outcome (Code × Heap K) :=
  checked L alignment [source, dest] h (run (fun _ v => v.getD 0 0) [source] dest n 0 h)

/-- `vectorAdd`: `vector_functions_impl.hpp` lines 93-107. -/
def vectorAdd (op1 op2 result : Ptr) (n : Nat) (alignment : BitVec 64) : Outcome (Code × Heap K) :=
  checked L alignment [op1, op2, result] h (run (fun _ v => v.getD 0 0 + v.getD 1 0) [op1, op2] result n 0 h)

/-- `vectorAddInplace`: `vector_functions_impl.hpp` lines 109-122. -/
def vectorAddInplace (op1 op2Result : Ptr) (n : Nat) (alignment : BitVec 64) : Outcome (Code × Heap K) :=
  checked L alignment [op1, op2Result] h (run (fun _ v => v.getD 0 0 + v.getD 1 0) [op2Result, op1] op2Result n 0 h)

/-- `vectorAddConstant`: `vector_functions_impl.hpp` lines 124-137. -/
def vectorAddConstant (constantValue : K) (op result : Ptr) (n : Nat) (alignment : BitVec 64) : Outcome (Code × Heap K) :=
  checked L alignment [op, result] h (run (fun _ v => v.getD 0 0 + constantValue) [op] result n 0 h)

/-- `vectorAddConstantInplace`: `vector_functions_impl.hpp` lines 139-149. -/
def vectorAddConstantInplace (constantValue : K) (opResult : Ptr) (n : Nat) (alignment : BitVec 64) : Outcome (Code × Heap K) :=
  checked L alignment [opResult] h (run (fun _ v => v.getD 0 0 + constantValue) [opResult] opResult n 0 h)

/-- `vectorSubtract`: `vector_functions_impl.hpp` lines 151-164. -/
def vectorSubtract (subtrahend minuend result : Ptr) (n : Nat) (alignment : BitVec 64) : Outcome (Code × Heap K) :=
  checked L alignment [subtrahend, minuend, result] h
    (run (fun _ v => v.getD 0 0 - v.getD 1 0) [subtrahend, minuend] result n 0 h)

/-- `vectorSubtractInplace`: `vector_functions_impl.hpp` lines 166-179. -/
def vectorSubtractInplace (minuend subtrahendResult : Ptr) (n : Nat) (alignment : BitVec 64) : Outcome (Code × Heap K) :=
  checked L alignment [minuend, subtrahendResult] h
    (run (fun _ v => v.getD 0 0 - v.getD 1 0) [minuend, subtrahendResult] subtrahendResult n 0 h)

/-- `vectorSubtractConstant`: `vector_functions_impl.hpp` lines 181-192. -/
def vectorSubtractConstant (constantMinuend : K) (subtrahend result : Ptr) (n : Nat) (alignment : BitVec 64) :
    Outcome (Code × Heap K) :=
  checked L alignment [subtrahend, result] h (run (fun _ v => v.getD 0 0 - constantMinuend) [subtrahend] result n 0 h)

/-- `vectorSubtractConstantInplace`: `vector_functions_impl.hpp` lines 194-203. -/
def vectorSubtractConstantInplace (constantMinuend : K) (subtrahendResult : Ptr) (n : Nat) (alignment : BitVec 64) :
    Outcome (Code × Heap K) :=
  checked L alignment [subtrahendResult] h
    (run (fun _ v => v.getD 0 0 - constantMinuend) [subtrahendResult] subtrahendResult n 0 h)

/-- `vectorMultiply`: `vector_functions_impl.hpp` lines 205-220. -/
def vectorMultiply (factor1 factor2 result : Ptr) (n : Nat) (alignment : BitVec 64) : Outcome (Code × Heap K) :=
  checked L alignment [factor1, factor2, result] h
    (run (fun _ v => v.getD 0 0 * v.getD 1 0) [factor1, factor2] result n 0 h)

/-- `vectorMultiplyInplace`: `vector_functions_impl.hpp` lines 222-235. -/
def vectorMultiplyInplace (factor1 factor2Result : Ptr) (n : Nat) (alignment : BitVec 64) : Outcome (Code × Heap K) :=
  checked L alignment [factor1, factor2Result] h
    (run (fun _ v => v.getD 0 0 * v.getD 1 0) [factor2Result, factor1] factor2Result n 0 h)

/-- `vectorMultiplyConstant`: `vector_functions_impl.hpp` lines 237-251. -/
def vectorMultiplyConstant (constantValue : K) (factor result : Ptr) (n : Nat) (alignment : BitVec 64) : Outcome (Code × Heap K) :=
  checked L alignment [factor, result] h (run (fun _ v => constantValue * v.getD 0 0) [factor] result n 0 h)

/-- `vectorMultiplyConstantInplace`: `vector_functions_impl.hpp` lines 253-265. -/
def vectorMultiplyConstantInplace (constantValue : K) (factorResult : Ptr) (n : Nat) (alignment : BitVec 64) :
    Outcome (Code × Heap K) :=
  checked L alignment [factorResult] h (run (fun _ v => v.getD 0 0 * constantValue) [factorResult] factorResult n 0 h)

/-- `vectorMultiplyAdd`: `vector_functions_impl.hpp` lines 267-284. -/
def vectorMultiplyAdd (factor1 factor2 addend result : Ptr) (n : Nat) (alignment : BitVec 64) : Outcome (Code × Heap K) :=
  checked L alignment [factor1, factor2, addend, result] h
    (run (fun _ v => v.getD 0 0 + v.getD 1 0 * v.getD 2 0) [addend, factor1, factor2] result n 0 h)

/-- `vectorMultiplyAddInplace`: `vector_functions_impl.hpp` lines 286-301. -/
def vectorMultiplyAddInplace (factor1 factor2 accumulator : Ptr) (n : Nat) (alignment : BitVec 64) : Outcome (Code × Heap K) :=
  checked L alignment [factor1, factor2, accumulator] h
    (run (fun _ v => v.getD 0 0 + v.getD 1 0 * v.getD 2 0) [accumulator, factor1, factor2] accumulator n 0 h)

/-- `vectorMultiplyConstantAdd`: `vector_functions_impl.hpp` lines 303-319. -/
def vectorMultiplyConstantAdd (constFactor : K) (factor addend result : Ptr) (n : Nat) (alignment : BitVec 64) :
    Outcome (Code × Heap K) :=
  checked L alignment [factor, addend, result] h
    (run (fun _ v => v.getD 0 0 + constFactor * v.getD 1 0) [addend, factor] result n 0 h)

/-- `vectorMultiplyConstantAddInplace`: `vector_functions_impl.hpp` lines 321-335. -/
def vectorMultiplyConstantAddInplace (constFactor : K) (factor accumulator : Ptr) (n : Nat) (alignment : BitVec 64) :
    Outcome (Code × Heap K) :=
  checked L alignment [factor, accumulator] h
    (run (fun _ v => v.getD 0 0 + constFactor * v.getD 1 0) [accumulator, factor] accumulator n 0 h)

/-- `vectorRampScaling`: `vector_functions_impl.hpp` lines 363-403. The alignment is checked in debug builds only (lines
373-377). -/
def vectorRampScaling (debug : Bool) (input ramp output : Ptr) (baseGain rampGain : K) (n : Nat) (accumulate : Bool)
    (alignment : BitVec 64) : Outcome (Code × Heap K) :=
  checked L alignment (if debug then [input, ramp, output] else []) h
    (if accumulate then
      run (fun _ v => v.getD 0 0 + (baseGain + rampGain * v.getD 1 0) * v.getD 2 0) [output, ramp, input] output n 0 h
    else run (fun _ v => (baseGain + rampGain * v.getD 0 0) * v.getD 1 0) [ramp, input] output n 0 h)

end

/-- The loop of `vectorCopyStrided`: `vector_functions_impl.hpp` lines 344-347. -/
def copyLoop (srcStride destStride : Nat) : Nat → Ptr → Ptr → Heap K → Outcome (Heap K)
  | 0, _, _, h => .ok h
  | n + 1, src, dest, h => do
    let v ← read h src 0
    let h' ← write h dest 0 v
    copyLoop srcStride destStride n { src with idx := src.idx + srcStride } { dest with idx := dest.idx + destStride } h'

/-- `vectorCopyStrided`: `vector_functions_impl.hpp` lines 337-350. -/
def vectorCopyStrided (L : Layout) (h : Heap K) (src dest : Ptr) (srcStride destStride n : Nat) (alignment : BitVec 64) :
    Outcome (Code × Heap K) :=
  checked L alignment [src, dest] h (copyLoop srcStride destStride n src dest h)

/-- The loop of `vectorFillStrided`: `vector_functions_impl.hpp` lines 356-359. -/
def fillLoop (val : K) (destStride : Nat) : Nat → Ptr → Heap K → Outcome (Heap K)
  | 0, _, h => .ok h
  | n + 1, dest, h => do
    let h' ← write h dest 0 val
    fillLoop val destStride n { dest with idx := dest.idx + destStride } h'

/-- `vectorFillStrided`: `vector_functions_impl.hpp` lines 352-361. -/
def vectorFillStrided (L : Layout) (h : Heap K) (val : K) (dest : Ptr) (destStride n : Nat) (alignment : BitVec 64) :
    Outcome (Code × Heap K) :=
  checked L alignment [dest] h (fillLoop val destStride n dest h)

/-! ### The functions with one stride, in a common form -/

/-- The functions, with their arguments that are not arrays. -/
inductive Op (K : Type u) where
  | zero
  | fill (value : K)
  | ramp (startVal endVal : K) (startInclusive endInclusive : Bool)
  | copy
  | add
  | addInplace
  | addConstant (c : K)
  | addConstantInplace (c : K)
  | subtract
  | subtractInplace
  | subtractConstant (c : K)
  | subtractConstantInplace (c : K)
  | multiply
  | multiplyInplace
  | multiplyConstant (c : K)
  | multiplyConstantInplace (c : K)
  | multiplyAdd
  | multiplyAddInplace
  | multiplyConstantAdd (c : K)
  | multiplyConstantAddInplace (c : K)
  | rampScaling (baseGain rampGain : K) (accumulate : Bool)
  deriving DecidableEq

/-- The number of arguments `T const *`: `/repo/src/libefl/vector_functions.hpp` lines 20-290. -/
def Op.arity : Op K → Nat
  | .zero | .fill _ | .ramp .. | .addConstantInplace _ | .subtractConstantInplace _ | .multiplyConstantInplace _ => 0
  | .copy | .addInplace | .addConstant _ | .subtractInplace | .subtractConstant _ | .multiplyInplace | .multiplyConstant _
  | .multiplyConstantAddInplace _ => 1
  | .add | .subtract | .multiply | .multiplyAddInplace | .multiplyConstantAdd _ | .rampScaling .. => 2
  | .multiplyAdd => 3

/-- The call of a function with the read-only arrays in the order of the parameters, and the array that is written.
`/repo/src/libefl/vector_functions.hpp` lines 20-290. A call with another number of arrays does not compile. -/
def Op.call [Field K] (op : Op K) (L : Layout) (debug : Bool) (h : Heap K) (ins : List Ptr) (out : Ptr) (n : Nat)
    (alignment : BitVec 64) : Outcome (Code × Heap K) :=
  match op, ins with
  | .zero, [] => vectorZero L h out n alignment
  | .fill v, [] => vectorFill L h v out n alignment
  | .ramp s e si ei, [] => vectorRamp L h out n s e si ei alignment
  | .copy, [a] => vectorCopy L h a out n alignment
  | .add, [a, b] => vectorAdd L h a b out n alignment
  | .addInplace, [a] => vectorAddInplace L h a out n alignment
  | .addConstant c, [a] => vectorAddConstant L h c a out n alignment
  | .addConstantInplace c, [] => vectorAddConstantInplace L h c out n alignment
  | .subtract, [a, b] => vectorSubtract L h a b out n alignment
  | .subtractInplace, [a] => vectorSubtractInplace L h a out n alignment
  | .subtractConstant c, [a] => vectorSubtractConstant L h c a out n alignment
  | .subtractConstantInplace c, [] => vectorSubtractConstantInplace L h c out n alignment
  | .multiply, [a, b] => vectorMultiply L h a b out n alignment
  | .multiplyInplace, [a] => vectorMultiplyInplace L h a out n alignment
  | .multiplyConstant c, [a] => vectorMultiplyConstant L h c a out n alignment
  | .multiplyConstantInplace c, [] => vectorMultiplyConstantInplace L h c out n alignment
  | .multiplyAdd, [a, b, c] => vectorMultiplyAdd L h a b c out n alignment
  | .multiplyAddInplace, [a, b] => vectorMultiplyAddInplace L h a b out n alignment
  | .multiplyConstantAdd k, [a, b] => vectorMultiplyConstantAdd L h k a b out n alignment
  | .multiplyConstantAddInplace k, [a] => vectorMultiplyConstantAddInplace L h k a out n alignment
  | .rampScaling g r acc, [a, b] => vectorRampScaling L h debug a b out g r n acc alignment
  | _, _ => .ub

end Visr.VectorFn
