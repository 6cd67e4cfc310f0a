import Mathlib.Algebra.Field.Basic
import Mathlib.Algebra.BigOperators.Group.List.Basic
import Mathlib.Data.Nat.Cast.Defs

/-!
# `efl::LagrangeCoefficientCalculator`

Models `src/libefl/lagrange_coefficient_calculator.{hpp,cpp}`. The floating-point type is modelled by a field; the
orders 0 to 9 instantiated by the code are generalised to all orders.
-/

namespace Visr.Lagrange

variable {K : Type*} [Field K]

/-- `offset()` (`lagrange_coefficient_calculator.cpp:97-103`). -/
def offset (N : Nat) (reverse : Bool) (idx : Nat) : K :=
  if reverse then 2⁻¹ * (N : K) - (idx : K) else (idx : K) - 2⁻¹ * (N : K)

/-- `scaleFactor()` (`lagrange_coefficient_calculator.cpp:105-118`). -/
def scaleFactor (N : Nat) (reverse : Bool) (idx : Nat) : K :=
  1 / (List.range (N + 1)).foldl
    (fun acc run => if run ≠ idx then acc * (offset N reverse run - offset N reverse idx) else acc) 1

/-- The first loop of `multiplyAndShuffle` (`lagrange_coefficient_calculator.cpp:41-48`): products of adjacent pairs, a
single last element is passed on. -/
def pairProducts : List K → List K
  | a :: b :: l => a * b :: pairProducts l
  | l => l

/-- The second loop of `multiplyAndShuffle` (`lagrange_coefficient_calculator.cpp:50-59`). -/
def combine : List K → List K → List K
  | a :: b :: l, p :: ps => b * p :: a * p :: combine l ps
  | _ :: [], p :: _ => [p]
  | l, _ => l

theorem pairProducts_length : ∀ l : List K, (pairProducts l).length = (l.length + 1) / 2
  | [] => by simp [pairProducts]
  | [_] => by simp [pairProducts]
  | _ :: _ :: l => by simp [pairProducts, pairProducts_length l]; omega

/-- `multiplyAndShuffle` (`lagrange_coefficient_calculator.cpp:31-75`). The empty case does not occur
(`assert( false )`). -/
def multiplyAndShuffle : List K → List K
  | [] => []
  | [_] => [1]
  | [a, b] => [b, a]
  | a :: b :: c :: l =>
    combine (a :: b :: c :: l) (multiplyAndShuffle (pairProducts (a :: b :: c :: l)))
termination_by l => l.length
decreasing_by
  rw [pairProducts_length]
  simp only [List.length_cons]
  omega

/-- `calculateCoefficients()` (`lagrange_coefficient_calculator.cpp:85-95`). -/
def calculateCoefficients (N : Nat) (reverse : Bool) (mu : K) : List K :=
  let internal := multiplyAndShuffle ((List.range (N + 1)).map (fun i => offset N reverse i - mu))
  List.zipWith (· * ·) ((List.range (N + 1)).map (scaleFactor N reverse)) internal

end Visr.Lagrange
