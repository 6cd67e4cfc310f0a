import Verif.Simd.Model

/-!
# Specification of the vectorised functions (C72)

What each function is documented to compute (`libefl/vector_functions.hpp`), cell by cell.
-/

namespace Visr.Simd

variable {K : Type} [CommRing K]

/-- Number of cells of an element. -/
def Fn.size : Fn → Nat
  | .multiplyComplex => 2
  | .multiplyAddComplex => 2
  | .constAddComplex => 2
  | _ => 1

/-- Real part of element `k` of a complex vector. -/
def reAt (m : Mem K) (p k : Nat) : K := m (p + 2 * k)

/-- Imaginary part of element `k` of a complex vector. -/
def imAt (m : Mem K) (p k : Nat) : K := m (p + 2 * k + 1)

/-- A complex number as two cells. -/
def cell (i : Nat) (re im : K) : K := if i % 2 = 0 then re else im

/-- The value of cell `i` of the result. -/
def value (fn : Fn) (a : Args K) (m : Mem K) (i : Nat) : K :=
  match fn with
  | .multiplyFloat => m (a.p1 + i) * m (a.p2 + i)
  | .multiplyDouble => m (a.p1 + i) * m (a.p2 + i)
  | .multiplyAddFloat => m (a.y + i) + m (a.p1 + i) * m (a.p2 + i)
  | .multiplyAddDouble => m (a.y + i) + m (a.p1 + i) * m (a.p2 + i)
  | .constAddFloat => m (a.y + i) + a.re * m (a.p1 + i)
  | .rampFloat =>
    (if a.accumulate = true then m (a.y + i) else 0) + (a.re + a.im * m (a.p2 + i)) * m (a.p1 + i)
  | .multiplyComplex =>
    let k := i / 2
    cell i (reAt m a.p1 k * reAt m a.p2 k - imAt m a.p1 k * imAt m a.p2 k)
      (reAt m a.p1 k * imAt m a.p2 k + imAt m a.p1 k * reAt m a.p2 k)
  | .multiplyAddComplex =>
    let k := i / 2
    cell i (reAt m a.y k + (reAt m a.p1 k * reAt m a.p2 k - imAt m a.p1 k * imAt m a.p2 k))
      (imAt m a.y k + (reAt m a.p1 k * imAt m a.p2 k + imAt m a.p1 k * reAt m a.p2 k))
  | .constAddComplex =>
    let k := i / 2
    cell i (reAt m a.y k + (a.re * reAt m a.p1 k - a.im * imAt m a.p1 k))
      (imAt m a.y k + (a.re * imAt m a.p1 k + a.im * reAt m a.p1 k))

/-- The memory after the call: the first `k` elements of the result are set, nothing else changes. -/
def written (fn : Fn) (a : Args K) (m : Mem K) (k : Nat) : Mem K :=
  fun q => if a.y ≤ q ∧ q < a.y + fn.size * k then value fn a m (q - a.y) else m q

/-- Does the function use its second vector argument? -/
def Fn.usesP2 : Fn → Bool
  | .constAddFloat => false
  | .constAddComplex => false
  | _ => true

/-- An input vector of `n` cells is the output vector or does not overlap with it. -/
def NoConflict (p y n : Nat) : Prop := p = y ∨ p + n ≤ y ∨ y + n ≤ p

/-- The vectors may be passed to the function. -/
def Separate (fn : Fn) (a : Args K) : Prop :=
  NoConflict a.p1 a.y (fn.size * a.n) ∧ (fn.usesP2 = true → NoConflict a.p2 a.y (fn.size * a.n))

/-- The vectors have the promised alignment, a power of two or zero. -/
def Aligned (fn : Fn) (a : Args K) : Prop :=
  a.alignment = 0 ∨ ((∃ k, a.alignment = 2 ^ k) ∧ a.p1 % (a.alignment * fn.size) = 0 ∧
    (fn.usesP2 = true → a.p2 % (a.alignment * fn.size) = 0) ∧ a.y % (a.alignment * fn.size) = 0)

/-- The four-element loop of the real multiplication with a constant either has an accumulator aligned to four elements, or
is not reached. -/
def ConstantOk (fn : Fn) (impl : Option Feature) (a : Args K) : Prop :=
  fn = .constAddFloat → match impl with
    | none => True
    | some .sse => a.y % 4 = 0 ∨ a.n < 4
    | some _ => a.y % 4 = 0 ∨ a.n % 8 < 4

/-- The functions that check the alignment of their arguments. -/
def Fn.checks (debug : Bool) : Fn → Bool
  | .constAddFloat => false
  | .constAddComplex => false
  | .rampFloat => debug
  | _ => true

/-- The functions selected by an execution that starts with the reference functions and calls `initialiseLibrary` (`some
cpu`) and `uninitialiseLibrary` (`none`) any number of times. -/
def tableAfter (calls : List (Option Cpu)) : Table :=
  calls.foldl (fun t c => match c with
    | some cpu => initialiseLibrary cpu t
    | none => uninitialiseLibrary t) Table.init

end Visr.Simd
