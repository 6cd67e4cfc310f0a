import Verif.Outcome

/-!
# `rbbl::CircularBuffer`

Models `src/librbbl/circular_buffer.{hpp,cpp}`. A channel row is a function from the position inside the row to the sample;
the accesses of the code are checked against the row width `2 * alloc` and leave the model with `ub` if they are outside.
That different rows do not overlap is property C19 (`BasicMatrix`).
-/

namespace Visr.CircularBuffer
open Visr

/-- `efl::nextAlignedSize`, `src/libefl/alignment.hpp` (see `Verif.Alignment` for its own properties). -/
def nextAlignedSize (size align : Nat) : Nat :=
  if align = 0 then size else if size % align = 0 then size else (size / align + 1) * align

/-- The data members of `CircularBuffer` (`circular_buffer.hpp:178-204`); `row ch i` is
`mBasePointer[ch * mStride + i]`. -/
structure CB (α : Type u) where
  channels : Nat
  length : Nat
  alloc : Nat
  row : Nat → Nat → α
  w : Nat

/-- Constructor, `circular_buffer.cpp:28-32, 95-105`. The `BasicMatrix` constructor zero-fills the storage. -/
def CB.init [Zero α] (channels length align : Nat) : CB α :=
  ⟨channels, length, nextAlignedSize length align, fun _ _ => 0, 0⟩

/-- `efl::vectorCopy` inside a row: copy `n` samples from `src` (given as a function) to positions `dst, dst+1, ...`. -/
def blit (r : Nat → α) (dst n : Nat) (src : Nat → α) : Nat → α :=
  fun i => if dst ≤ i ∧ i < dst + n then src (i - dst) else r i

/-- The copies of `Impl::advanceWriteIndex` inside one row, `circular_buffer.cpp:63-91`: the first part of the new samples
goes to the shadow half; if the write crossed the middle of the row, the rest is copied back to the beginning. -/
def advanceRow (A w n : Nat) (r : Nat → α) : Nat → α :=
  let firstBlockEnd := min (w + n) A
  let first := firstBlockEnd - w
  let r1 := blit r (w + A) first (fun i => r (w + i))
  if first < n then blit r1 0 (n - first) (fun i => r1 (A + i)) else r1

/-- `Impl::advanceWriteIndex`, `circular_buffer.cpp:53-93`. `% mAllocatedLength` is undefined for an empty buffer. -/
def CB.advance (b : CB α) (n : Nat) : Outcome (CB α) :=
  let first := min (b.w + n) b.alloc - b.w
  if b.alloc = 0 then .ub
  -- the largest position touched by the copies must lie inside the row
  else if b.w + b.alloc + first > 2 * b.alloc ∨ b.alloc + (n - first) > 2 * b.alloc then .ub
  else
    .ok { b with
      row := fun ch => if ch < b.channels then advanceRow b.alloc b.w n (b.row ch) else b.row ch
      w := (b.w + n) % b.alloc }

/-- `CircularBuffer::write`, all three overloads (`circular_buffer.cpp:112-200`): `data ch i` is the `i`-th new sample of
channel `ch`. -/
def CB.write (b : CB α) (data : Nat → Nat → α) (numChannels n : Nat) : Outcome (CB α) :=
  if numChannels ≠ b.channels then .throw .invalidArgument
  else if n > b.length then .throw .invalidArgument
  else if b.w + n > 2 * b.alloc then .ub
  else
    let row1 : Nat → Nat → α := fun ch => if ch < b.channels then blit (b.row ch) b.w n (data ch) else b.row ch
    CB.advance { b with row := row1 } n

/-- `getWritePointers` (`circular_buffer.cpp:208-215`), the caller storing `n` samples per channel through the pointers,
then `commitWrite( n )` (`:217-225`). Stores outside the row are undefined behaviour. -/
def CB.directWrite (b : CB α) (data : Nat → Nat → α) (n : Nat) : Outcome (CB α) :=
  if b.w + n > 2 * b.alloc then .ub
  else
    let row1 : Nat → Nat → α := fun ch => if ch < b.channels then blit (b.row ch) b.w n (data ch) else b.row ch
    if n > b.length then .throw .invalidArgument
    else CB.advance { b with row := row1 } n

/-- Reading `n` consecutive samples from the pointer returned by `getReadPointer( ch, delay )`
(`circular_buffer.hpp:157-163`, no range check): undefined if any read lies outside the row. -/
def CB.read (b : CB α) (ch delay n : Nat) : Outcome (List α) :=
  if ch ≥ b.channels ∨ delay > b.alloc + b.w ∨ b.alloc + b.w - delay + n > 2 * b.alloc then .ub
  else .ok ((List.range n).map fun i => b.row ch (b.alloc + b.w - delay + i))

/-- Reading through the pointers of the range-checked `getReadPointers( delay )` (`circular_buffer.cpp:227-238`). -/
def CB.readChecked (b : CB α) (ch delay n : Nat) : Outcome (List α) :=
  if delay ≥ b.length then .throw .invalidArgument else b.read ch delay n

end Visr.CircularBuffer
