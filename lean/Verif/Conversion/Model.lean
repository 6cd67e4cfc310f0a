import Verif.Outcome
import Verif.Efl.Aligned
import Mathlib.Data.Rat.Floor
import Mathlib.Algebra.Order.Floor.Defs

/-!
# Conversion of sample types

`/repo/src/libefl/reference/vector_conversions_impl.hpp`; the functions of `/repo/src/libefl/vector_conversions.hpp` call
them (`/repo/src/libefl/vector_conversions.cpp` lines 18-32).

Conventions and simplifications: the source and the destination are different arrays; a pointer is an array and an index.
A finite floating-point number is the rational number that it represents; the rounding of conversions between floating-point
types and from integers to floating-point numbers is not modelled (`conv` is then any function).
-/

namespace Visr.Conversion

/-- A floating-point number. -/
inductive Fp where
  | finite (q : ℚ)
  | other -- infinite or not a number
  deriving DecidableEq

/-- `std::llrint` in the default rounding mode, as a number of arbitrary size: `vector_conversions_impl.hpp` line 61. -/
def rint (q : ℚ) : Int :=
  if q - ⌊q⌋ < 1 / 2 then ⌊q⌋
  else if q - ⌊q⌋ > 1 / 2 then ⌊q⌋ + 1
  else if ⌊q⌋ % 2 = 0 then ⌊q⌋ else ⌊q⌋ + 1

/-- `static_cast` to a signed integer type: `vector_conversions_impl.hpp` lines 45 and 61. Modulo the range of the type (by
C++20, and before by the definition of all supported compilers). -/
def wrap (bits : Nat) (n : Int) : Int :=
  if n % 2 ^ bits < 2 ^ (bits - 1) then n % 2 ^ bits else n % 2 ^ bits - 2 ^ bits

/-- `Converter` from floating-point numbers to integers: `vector_conversions_impl.hpp` lines 54-63. The result of `llrint` is
unspecified if it is not in the range of `long long`. -/
def floatToInt (bits : Nat) : Fp → Outcome Int
  | .other => .ub
  | .finite q => if -2 ^ 63 ≤ rint q ∧ rint q < 2 ^ 63 then .ok (wrap bits (rint q)) else .ub

/-- `Converter` between integers: `vector_conversions_impl.hpp` lines 37-47. -/
def intToInt (bits : Nat) (n : Int) : Outcome Int := .ok (wrap bits n)

/-- The loop: `vector_conversions_impl.hpp` lines 108-111. -/
def loop (conv : α → Outcome β) (src : List α) (inStride outStride : Nat) : Nat → Nat → Nat → List β → Outcome (List β)
  | 0, _, _, dest => .ok dest
  | n + 1, i, o, dest =>
    match src[i]? with
    | none => .ub
    | some v => do
      let w ← conv v
      if o < dest.length then loop conv src inStride outStride n (i + inStride) (o + outStride) (dest.set o w)
      else .ub

/-- The error codes. -/
inductive Code where
  | noError
  | alignmentError
  deriving DecidableEq

/-- A pointer: an address, and the index in its array. -/
structure Pointer where
  address : BitVec 64
  index : Nat

/-- `vectorConvertInputOutputStride`: `vector_conversions_impl.hpp` lines 96-113. `sizeIn` and `sizeOut` are the sizes of the
types. -/
def convertInputOutputStride (sizeIn sizeOut : BitVec 64) (conv : α → Outcome β) (src : List α) (ps : Pointer) (dest : List β)
    (pd : Pointer) (n inStride outStride : Nat) (alignment : BitVec 64) : Outcome (Code × List β) :=
  if Efl.checkAlignment sizeIn ps.address alignment = false then .ok (.alignmentError, dest)
  else if Efl.checkAlignment sizeOut pd.address alignment = false then .ok (.alignmentError, dest)
  else do
    let d ← loop conv src inStride outStride n ps.index pd.index dest
    .ok (.noError, d)

/-- `vectorConvert`: `vector_conversions_impl.hpp` lines 67-74. -/
def convert (sizeIn sizeOut : BitVec 64) (conv : α → Outcome β) (src : List α) (ps : Pointer) (dest : List β) (pd : Pointer)
    (n : Nat) (alignment : BitVec 64) : Outcome (Code × List β) :=
  convertInputOutputStride sizeIn sizeOut conv src ps dest pd n 1 1 alignment

/-- `vectorConvertInputStride`: `vector_conversions_impl.hpp` lines 76-84. -/
def convertInputStride (sizeIn sizeOut : BitVec 64) (conv : α → Outcome β) (src : List α) (ps : Pointer) (dest : List β)
    (pd : Pointer) (n inStride : Nat) (alignment : BitVec 64) : Outcome (Code × List β) :=
  convertInputOutputStride sizeIn sizeOut conv src ps dest pd n inStride 1 alignment

/-- `vectorConvertOutputStride`: `vector_conversions_impl.hpp` lines 86-94. -/
def convertOutputStride (sizeIn sizeOut : BitVec 64) (conv : α → Outcome β) (src : List α) (ps : Pointer) (dest : List β)
    (pd : Pointer) (n outStride : Nat) (alignment : BitVec 64) : Outcome (Code × List β) :=
  convertInputOutputStride sizeIn sizeOut conv src ps dest pd n 1 outStride alignment

end Visr.Conversion
