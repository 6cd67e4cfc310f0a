import Verif.NdArray.Model
import Verif.FlexibleBuffer.Spec

/-!
# What NumPy defines

Element `(i, j)` of an array is at the address of the first element plus `i` times the first and `j` times the second stride.
-/

namespace Visr.NdArray

open Visr

variable {K : Type} {σ : Type}

/-- The address of element `(i, j)`. -/
def elementAddress (a : Nd) (i j : Nat) : BitVec 64 :=
  a.base + BitVec.ofInt 64 (i * a.strides.headD 0 + j * a.strides.getD 1 0)

/-- The elements of a two-dimensional array in memory. -/
def Elements (mem : Memory K) (a : Nd) (rows cols : Nat) (x : Nat → Nat → K) : Prop :=
  a.shape = [rows, cols] ∧ ∀ i < rows, ∀ j < cols, mem (elementAddress a i j) = some (x i j)

/-- The strides are multiples of the size of an element, which divides `2 ^ 64`. -/
def WholeStrides (size : BitVec 64) (a : Nd) : Prop := ∀ s ∈ a.strides, (size.toNat : Int) ∣ s

/-- A possible size of an element. -/
def PowerOfTwo (size : BitVec 64) : Prop := ∃ k, k < 64 ∧ size.toNat = 2 ^ k

/-- Element `(i, j)` of a new array, by its strides. -/
def New.elem (o : New K) (size : BitVec 64) (i j : Nat) : Option K :=
  let byte := i * o.strides.headD 0 + j * o.strides.getD 1 0
  if byte % size.toNat = 0 then o.cells[byte / size.toNat]? else none

end Visr.NdArray
