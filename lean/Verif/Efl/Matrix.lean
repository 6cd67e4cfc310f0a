import Verif.Efl.Aligned
import Mathlib.Tactic.TypeStar
import Mathlib.Algebra.Notation.Defs

/-!
# `efl::BasicMatrix`

Models `src/libefl/basic_matrix.hpp`. The storage (`AlignedArray`, see `Verif.Efl.Aligned`) is a size and a content;
access beyond the size is undefined behaviour. Allocation failures and the alignment checks of the vector functions
(which hold because every row starts at a multiple of the alignment) are not modelled.
-/

namespace Visr.Efl
open Visr

variable {α : Type*}

/-- Members of `BasicMatrix` (`basic_matrix.hpp:232-237`); `size` and `data` are those of `mData`. -/
structure Mat (α : Type*) where
  stride : Nat
  rows : Nat
  cols : Nat
  align : Nat
  size : Nat
  data : Nat → α

/-- Alignment test of the `AlignedArray` constructor (`aligned_array.hpp:203-214`). -/
def alignmentAccepted (align : Nat) : Bool := alignmentIsPowerOfTwo (BitVec.ofNat 64 (if align = 0 then 1 else align))

/-- `BasicMatrix( rows, cols, alignment )` (`basic_matrix.hpp:43-50`). -/
def Mat.create [Zero α] (rows cols align : Nat) : Outcome (Mat α) :=
  let stride := nextAlignedSize cols align
  if !alignmentAccepted align then .throw .invalidArgument
  else .ok ⟨stride, rows, cols, if align = 0 then 1 else align, stride * rows, fun _ => 0⟩

/-- `std::copy` of `vals` to a position of the storage. -/
def writeAt (data : Nat → α) (pos : Nat) (vals : List α) : Nat → α :=
  fun k => if pos ≤ k then (vals[k - pos]?).getD (data k) else data k

/-- The row loop of the initialiser list constructor (`basic_matrix.hpp:64-73`). -/
def initRows (stride cols size : Nat) (data : Nat → α) (rowIdx : Nat) : List (List α) → Outcome (Nat → α)
  | [] => .ok data
  | r :: rest =>
    if r.length ≠ cols then .throw .invalidArgument
    else if rowIdx * stride + cols > size then .ub
    else initRows stride cols size (writeAt data (rowIdx * stride) r) (rowIdx + 1) rest

/-- `BasicMatrix( rows, cols, initialValues, alignment )` (`basic_matrix.hpp:52-74`). The storage is not initialised
before; `junk` is its arbitrary content. -/
def Mat.createFrom (rows cols align : Nat) (vals : List (List α)) (junk : Nat → α) : Outcome (Mat α) :=
  let stride := nextAlignedSize cols align
  if !alignmentAccepted align then .throw .invalidArgument
  else if vals.length ≠ rows then .throw .invalidArgument
  else match initRows stride cols (stride * rows) junk 0 vals with
    | .ok d => .ok ⟨stride, rows, cols, if align = 0 then 1 else align, stride * rows, d⟩
    | .throw e => .throw e
    | .ub => .ub

/-- `resize()` (`basic_matrix.hpp:89-104`). -/
def Mat.resize [Zero α] (m : Mat α) (rows cols : Nat) : Mat α :=
  let newStride := nextAlignedSize cols m.align
  ⟨newStride, rows, cols, m.align, newStride * rows, fun _ => 0⟩

/-- `fillValue()` and, for the value zero, `zeroFill()` (`basic_matrix.hpp:106-122`). -/
def Mat.fill (m : Mat α) (v : α) : Outcome (Mat α) :=
  if m.stride * m.rows > m.size then .ub
  else .ok { m with data := fun k => if k < m.stride * m.rows then v else m.data k }

/-- `operator()` for reading (`basic_matrix.hpp:184-187`). -/
def Mat.get (m : Mat α) (row col : Nat) : Outcome α :=
  if row * m.stride + col < m.size then .ok (m.data (row * m.stride + col)) else .ub

/-- `operator()` for writing (`basic_matrix.hpp:179-182`). -/
def Mat.put (m : Mat α) (row col : Nat) (v : α) : Outcome (Mat α) :=
  if row * m.stride + col < m.size then
    .ok { m with data := fun k => if k = row * m.stride + col then v else m.data k }
  else .ub

/-- `at()` for reading (`basic_matrix.hpp:198-205`). -/
def Mat.at (m : Mat α) (row col : Nat) : Outcome α :=
  if row ≥ m.rows ∨ col ≥ m.cols then .throw .outOfRange else m.get row col

/-- `at()` for writing (`basic_matrix.hpp:189-196`). -/
def Mat.setAt (m : Mat α) (row col : Nat) (v : α) : Outcome (Mat α) :=
  if row ≥ m.rows ∨ col ≥ m.cols then .throw .outOfRange else m.put row col v

/-- `setRow()` (`basic_matrix.hpp:215-218`): copies `numberOfColumns()` values without range check. -/
def Mat.setRow (m : Mat α) (row : Nat) (vals : List α) : Outcome (Mat α) :=
  if vals.length < m.cols then .ub
  else if 0 < m.cols ∧ row * m.stride + m.cols > m.size then .ub
  else .ok { m with data := writeAt m.data (row * m.stride) (vals.take m.cols) }

/-- The loop of `setColumn()`. -/
def setColumnLoop (m : Mat α) (col : Nat) (vals : List α) : Nat → Outcome (Mat α)
  | 0 => .ok m
  | n + 1 =>
    match setColumnLoop m col vals n with
    | .ok m' =>
      match vals[n]? with
      | some v => m'.put n col v
      | none => .ub
    | .throw e => .throw e
    | .ub => .ub

/-- `setColumn()` (`basic_matrix.hpp:220-227`). -/
def Mat.setColumn (m : Mat α) (col : Nat) (vals : List α) : Outcome (Mat α) := setColumnLoop m col vals m.rows

/-- Row loop of `copy()` for different strides (`basic_matrix.hpp:161-167`). -/
def copyRows (m src : Mat α) : Nat → Outcome (Mat α)
  | 0 => .ok m
  | n + 1 =>
    match copyRows m src n with
    | .ok m' =>
      if 0 < m.cols ∧ (n * src.stride + m.cols > src.size ∨ n * m.stride + m.cols > m.size) then .ub
      else .ok { m' with data := writeAt m'.data (n * m.stride)
                                  ((List.range m.cols).map fun c => src.data (n * src.stride + c)) }
    | .throw e => .throw e
    | .ub => .ub

/-- `copy()` (`basic_matrix.hpp:145-169`) from another matrix. -/
def Mat.copyFrom (m src : Mat α) : Outcome (Mat α) :=
  if m.rows ≠ src.rows ∨ m.cols ≠ src.cols then .throw .invalidArgument
  else if src.stride = m.stride then
    if m.rows * m.stride > src.size ∨ m.rows * m.stride > m.size then .ub
    else .ok { m with data := fun k => if k < m.rows * m.stride then src.data k else m.data k }
  else copyRows m src m.rows

/-- `swap()` (`basic_matrix.hpp:130-138`): the new values of both matrices. -/
def Mat.swapWith (a b : Mat α) : Outcome (Mat α × Mat α) :=
  if a.rows ≠ b.rows ∨ a.cols ≠ b.cols ∨ a.stride ≠ b.stride ∨ a.align ≠ b.align then .throw .logicError
  else .ok ({ a with size := b.size, data := b.data }, { b with size := a.size, data := a.data })

/-- The defaulted move assignment (`basic_matrix.hpp:78`): member-wise, in declaration order, so the dimensions are
assigned before the storage. The storage assignment throws for different alignments (`aligned_array.hpp:239-249`) and
otherwise leaves the source without storage. Results: target and source after the call, and the exception if any. -/
def Mat.moveAssign (a b : Mat α) : Mat α × Mat α × Outcome Unit :=
  let a' := { a with stride := b.stride, rows := b.rows, cols := b.cols }
  if a.align ≠ b.align then (a', b, .throw .logicError)
  else ({ a' with size := b.size, data := b.data }, { b with size := 0 }, .ok ())

/-- Operations on the matrices of a program. -/
inductive MatOp (α : Type*) where
  | create (i rows cols align : Nat)
  | createFrom (i rows cols align : Nat) (vals : List (List α)) (junk : Nat → α)
  | resize (i rows cols : Nat)
  | fill (i : Nat) (v : α)
  | read (i row col : Nat)
  | write (i row col : Nat) (v : α)
  | setRow (i row : Nat) (vals : List α)
  | setColumn (i col : Nat) (vals : List α)
  | copy (i j : Nat)
  | swap (i j : Nat)

/-- Replace a matrix of the program. -/
def setObj {β : Type*} (s : Nat → Option β) (i : Nat) (v : β) : Nat → Option β := fun k => if k = i then some v else s k

/-- Store the result of an operation on matrix `i`; failing operations leave the matrices unchanged. -/
def store {β γ : Type*} (s : Nat → Option β) (i : Nat) : Outcome β → (Nat → Option β) × Outcome (Option γ)
  | .ok m => (setObj s i m, .ok none)
  | .throw e => (s, .throw e)
  | .ub => (s, .ub)

/-- One operation of a program on its matrices. Naming a missing matrix does nothing. -/
def matStep [Zero α] (s : Nat → Option (Mat α)) : MatOp α → (Nat → Option (Mat α)) × Outcome (Option α)
  | .create i rows cols align => store s i (Mat.create rows cols align)
  | .createFrom i rows cols align vals junk => store s i (Mat.createFrom rows cols align vals junk)
  | .resize i rows cols => match s i with
    | some m => store s i (.ok (m.resize rows cols))
    | none => (s, .ok none)
  | .fill i v => match s i with
    | some m => store s i (m.fill v)
    | none => (s, .ok none)
  | .read i row col => match s i with
    | some m => (s, (m.at row col).map some)
    | none => (s, .ok none)
  | .write i row col v => match s i with
    | some m => store s i (m.setAt row col v)
    | none => (s, .ok none)
  | .setRow i row vals => match s i with
    | some m => store s i (m.setRow row vals)
    | none => (s, .ok none)
  | .setColumn i col vals => match s i with
    | some m => store s i (m.setColumn col vals)
    | none => (s, .ok none)
  | .copy i j => match s i, s j with
    | some m, some src => store s i (m.copyFrom src)
    | _, _ => (s, .ok none)
  | .swap i j => match s i, s j with
    | some a, some b =>
      match a.swapWith b with
      | .ok (a', b') => (setObj (setObj s i a') j b', .ok none)
      | .throw e => (s, .throw e)
      | .ub => (s, .ub)
    | _, _ => (s, .ok none)

end Visr.Efl
