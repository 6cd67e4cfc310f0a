import Verif.Outcome
import Mathlib.Algebra.Ring.Defs
import Mathlib.Logic.Function.Basic

/-!
# Model of the multichannel FIR filter with spread taps

Models `/repo/src/librbbl/fir.cpp` and `/repo/src/librbbl/fir.hpp` over a commutative ring; rounding is not modelled.
`int` variables are integers with the range check of a 32-bit `int` wherever a calculation could leave it; leaving it is
undefined behaviour. Element accesses outside of the arrays of the class are undefined behaviour as well.

Simplifications: the numbers of filters and coefficients are natural numbers (negative arguments of the setters are
not modelled), allocations succeed, and the output channels overlap neither each other nor the input.
-/

namespace Visr.Fir
open Visr

/-- `nBlockSamples` (`fir.hpp:51`). -/
def blockSize : Nat := 64

/-- `maxnFIRs` (`fir.hpp:53`). -/
def maxFilters : Nat := 64

/-- `maxnFIRsamples`, with `maxnFIRblocks` of 32 (`fir.hpp:58-59`). -/
def maxSamples : Nat := blockSize * 32

/-- `nBufferSamples` (`fir.hpp:60`). -/
def bufferSize : Nat := blockSize * (32 + 1)

/-- Range of a 32-bit `int`. -/
def int32 (x : Int) : Prop := -2147483648 ≤ x ∧ x ≤ 2147483647

instance (x : Int) : Decidable (int32 x) := by unfold int32; infer_instance

/-- Data members (`fir.hpp:101-126`): `filters` is `m_nFIRs`, `samples` is `m_nFIRsamples`, `coeffs` the matrix `m_B`,
`upsample` is `m_nUpsample`, `buffer` and `pos` are `m_inBuffer` and `m_iBuf`. The arrays of the tristate filters and
`m_gain` are written by `createWhiteTristateFIRs()`, but never read. -/
structure State (K : Type) where
  filters : Nat
  samples : Nat
  coeffs : Nat → Nat → K
  upsample : Int
  buffer : Nat → K
  pos : Nat

variable {K : Type} [CommRing K]

/-- The constructor (`fir.cpp:22-28`). -/
def init : State K := ⟨0, 0, fun _ _ => 0, 1, fun _ => 0, 0⟩

/-- `setNumFIRs()` (`fir.hpp:64-68`). `resize()` fills the matrix with zeros (`basic_matrix.hpp:89-104`). -/
def setFilters (s : State K) (n : Nat) : State K := { s with filters := n, coeffs := fun _ _ => 0 }

/-- `setNumFIRsamples()` (`fir.hpp:69-73`). -/
def setSamples (s : State K) (n : Nat) : State K := { s with samples := n, coeffs := fun _ _ => 0 }

/-- `setUpsampleRatio()` (`fir.hpp:74-77`): the new state and the return value. -/
def setUpsample (s : State K) (n : Int) : Outcome (State K × Int) :=
  if ¬ int32 (n * s.samples) then .ub
  else if n * s.samples > maxSamples then .ok (s, -1)
  else .ok ({ s with upsample := n }, 0)

/-- `loadFIRs()` (`fir.cpp:30-38`): `rows` and `columns` are the dimensions of the argument `b`. -/
def load (s : State K) (rows columns : Nat) (b : Nat → Nat → K) : Outcome (State K) :=
  if rows ≠ s.filters ∨ columns ≠ s.samples then .throw .invalidArgument
  else .ok { s with coeffs := b }

/-- The loop over the coefficients of one filter in `createWhiteTristateFIRs()` (`fir.cpp:53-59`). `r` are the random
decisions: whether the coefficient is nonzero, and whether it is positive. The index lists have room for
`maxnFIRsamples` entries, which is not checked. -/
def whiteRow (r : Nat → Bool × Bool) : Nat → Nat → Nat → Nat → (Nat → K) → Outcome (Nat → K)
  | 0, _, _, _, row => .ok row
  | n + 1, j, plus, minus, row =>
    if (r j).1 then
      if (r j).2 then
        if plus < maxSamples then whiteRow r n (j + 1) (plus + 1) minus (Function.update row j 1) else .ub
      else
        if minus < maxSamples then whiteRow r n (j + 1) plus (minus + 1) (Function.update row j (-1)) else .ub
    else whiteRow r n (j + 1) plus minus (Function.update row j 0)

/-- The loop over the filters (`fir.cpp:50-61`). The normalisation `m_gain` is not used anywhere. -/
def whiteRows (r : Nat → Nat → Bool × Bool) (samples : Nat) : Nat → Nat → (Nat → Nat → K) → Outcome (Nat → Nat → K)
  | 0, _, b => .ok b
  | n + 1, i, b =>
    if i < maxFilters then
      match whiteRow (r i) samples 0 0 0 (b i) with
      | .ok row => whiteRows r samples n (i + 1) (Function.update b i row)
      | .throw e => .throw e
      | .ub => .ub
    else .ub

/-- `createWhiteTristateFIRs()` (`fir.cpp:41-64`). -/
def white (s : State K) (r : Nat → Nat → Bool × Bool) : Outcome (State K) :=
  match whiteRows r s.samples s.filters 0 s.coeffs with
  | .ok b => .ok { s with coeffs := b }
  | .throw e => .throw e
  | .ub => .ub

/-- The loop over the coefficients in `process()` for one sample (`fir.cpp:88-96`): `acc` are the sums of the filters,
`i` is `iBuf`. -/
def taps (s : State K) : Nat → Nat → Int → (Nat → K) → Outcome (Nat → K)
  | 0, _, _, acc => .ok acc
  | n + 1, j, i, acc =>
    if 0 < s.filters ∧ ¬ (0 ≤ i ∧ i < bufferSize) then .ub
    else if ¬ int32 (i - s.upsample) then .ub
    else
      let next := if i - s.upsample < 0 then i - s.upsample + bufferSize else i - s.upsample
      taps s n (j + 1) next fun k => if k < s.filters then acc k + s.coeffs k j * s.buffer i.toNat else acc k

/-- The loop over the samples of the block (`fir.cpp:80-98`): `out` are the output channels so far. -/
def outputs (s : State K) : Nat → Nat → (Nat → Nat → K) → Outcome (Nat → Nat → K)
  | 0, _, out => .ok out
  | n + 1, i, out =>
    match taps s s.samples 0 (s.pos + i : Nat) (fun _ => 0) with
    | .ok acc => outputs s n (i + 1) fun k i' => if k < s.filters ∧ i' = i then acc k else out k i'
    | .throw e => .throw e
    | .ub => .ub

/-- `process()` (`fir.cpp:68-104`). `out` are the contents of the output channels before the call, the result are those
after the call. -/
def process (s : State K) (input : Nat → K) (out : Nat → Nat → K) : Outcome (State K × (Nat → Nat → K)) :=
  if s.pos + blockSize ≤ bufferSize then
    let s1 : State K :=
      { s with buffer := fun m => if s.pos ≤ m ∧ m < s.pos + blockSize then input (m - s.pos) else s.buffer m }
    match outputs s1 blockSize 0 out with
    | .ok o => .ok ({ s1 with pos := if s.pos + blockSize ≥ bufferSize then 0 else s.pos + blockSize }, o)
    | .throw e => .throw e
    | .ub => .ub
  else .ub

/-- Calls. -/
inductive Op (K : Type) where
  | filters (n : Nat)
  | samples (n : Nat)
  | upsample (n : Int)
  | load (rows columns : Nat) (b : Nat → Nat → K)
  | white (r : Nat → Nat → Bool × Bool)
  | process (input : Nat → K) (out : Nat → Nat → K)

/-- One call; a call which throws leaves the object unchanged. -/
def step (s : State K) : Op K → Outcome (State K)
  | .filters n => .ok (setFilters s n)
  | .samples n => .ok (setSamples s n)
  | .upsample n => match setUpsample s n with
    | .ok r => .ok r.1
    | .throw e => .throw e
    | .ub => .ub
  | .load rows columns b => match load s rows columns b with
    | .ok s' => .ok s'
    | .throw _ => .ok s
    | .ub => .ub
  | .white r => white s r
  | .process input out => match process s input out with
    | .ok r => .ok r.1
    | .throw e => .throw e
    | .ub => .ub

/-- A history of calls. -/
def exec (s : State K) : List (Op K) → Outcome (State K)
  | [] => .ok s
  | o :: os => match step s o with
    | .ok s' => exec s' os
    | .throw e => .throw e
    | .ub => .ub

end Visr.Fir
