import Verif.Neon.Model

/-!
# Specification of the NEON functions (C86)

What each function is documented to compute (`/repo/src/libefl/vector_functions.hpp`), element by element.
-/

namespace Visr.Neon
open Visr Simd

variable {K : Type} [CommRing K]

instance : Add (Cx K) := ⟨fun a b => ⟨a.re + b.re, a.im + b.im⟩⟩

instance : Mul (Cx K) := ⟨fun a b => ⟨a.re * b.re - a.im * b.im, a.re * b.im + a.im * b.re⟩⟩

/-- The value of an element of the result, for real or complex numbers: the constant and the elements of the operands. -/
def formula {R : Type} [Add R] [Mul R] (op : Op) (c x1 x2 x3 : R) : R :=
  match op with
  | .add => x1 + x2
  | .addConstant => c + x1
  | .multiply => x1 * x2
  | .multiplyConstant => c * x1
  | .multiplyAdd => x1 * x2 + x3
  | .multiplyConstantAdd => c * x1 + x2

/-- Number of cells of an element. -/
def Fn.size (fn : Fn) : Nat := if fn.complex then 2 else 1

/-- Number of vector operands. -/
def Op.arity : Op → Nat
  | .addConstant | .multiplyConstant => 1
  | .add | .multiply | .multiplyConstantAdd => 2
  | .multiplyAdd => 3

/-- Where operand `j` (1, 2 or 3) is: in place, the last operand is the result vector. -/
def operand (fn : Fn) (a : Args K) (j : Nat) : Nat :=
  if fn.inplace = true ∧ j = fn.op.arity then a.y
  else if j = 1 then a.p1 else if j = 2 then a.p2 else a.p3

/-- Element `k` of a vector of complex numbers. -/
def complexAt (m : Memory K) (p k : Nat) : Cx K := ⟨val m (p + 2 * k), val m (p + 2 * k + 1)⟩

/-- Element `k` of a vector of real numbers. -/
def realAt (m : Memory K) (p k : Nat) : K := val m (p + k)

/-- Element `k` of the result, complex functions. -/
def complexResult (fn : Fn) (a : Args K) (m : Memory K) (k : Nat) : Cx K :=
  formula fn.op a.c (complexAt m (operand fn a 1) k) (complexAt m (operand fn a 2) k) (complexAt m (operand fn a 3) k)

/-- Element `k` of the result, real functions. -/
def realResult (fn : Fn) (a : Args K) (m : Memory K) (k : Nat) : K :=
  formula fn.op a.c.re (realAt m (operand fn a 1) k) (realAt m (operand fn a 2) k) (realAt m (operand fn a 3) k)

/-- Cell `i` of the result. -/
def value (fn : Fn) (a : Args K) (m : Memory K) (i : Nat) : K :=
  if fn.complex then
    if i % 2 = 0 then (complexResult fn a m (i / 2)).re else (complexResult fn a m (i / 2)).im
  else realResult fn a m i

/-- The memory after the call: the first `k` elements of the result are set, nothing else changes. -/
def written (fn : Fn) (a : Args K) (m : Memory K) (k : Nat) : Memory K :=
  fun q => if a.y ≤ q ∧ q < a.y + fn.size * k then some (value fn a m (q - a.y)) else m q

/-- The vectors that are passed to the function, the result first. -/
def vectors (fn : Fn) (a : Args K) : List Nat :=
  a.y :: ([a.p1, a.p2, a.p3].take (if fn.inplace then fn.op.arity - 1 else fn.op.arity))

/-- All elements of the vectors are accessible. -/
def Accessible (fn : Fn) (a : Args K) (m : Memory K) : Prop :=
  ∀ p ∈ vectors fn a, ∀ i, i < fn.size * a.n → (m (p + i)).isSome = true

/-- Each operand is the result vector or does not overlap with it. -/
def Separate (fn : Fn) (a : Args K) : Prop :=
  ∀ p ∈ vectors fn a, p = a.y ∨ p + fn.size * a.n ≤ a.y ∨ a.y + fn.size * a.n ≤ p

/-- The vectors have the promised alignment, a power of two or zero. -/
def Aligned (fn : Fn) (a : Args K) : Prop :=
  a.alignment = 0 ∨ ((∃ k, a.alignment = 2 ^ k) ∧ ∀ p ∈ vectors fn a, p % (a.alignment * fn.size) = 0)

/-- The functions that check the alignment of their arguments: all in debug builds, one of them always. -/
def Fn.checks (debug : Bool) (fn : Fn) : Bool := debug || fn == ⟨.multiplyAdd, true, true⟩

end Visr.Neon
