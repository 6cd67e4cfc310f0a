import Verif.Run

/-!
# Alignment helpers and `efl::AlignedArray`

Models `src/libefl/alignment.hpp` and `src/libefl/aligned_array.hpp`. `std::size_t` and addresses have 64 bits.
Element values are not modelled here: the model describes which memory an array hands out and owns.
-/

namespace Visr.Efl
open Visr

/-- `alignmentIsPowerOfTwo` (`alignment.hpp:27-30`) on 64-bit numbers. -/
def alignmentIsPowerOfTwo (a : BitVec 64) : Bool := a != 0#64 && (a &&& (~~~a + 1#64)) == a

/-- `checkAlignment` (`alignment.hpp:44-60`) for elements of `elemSize` bytes at address `ptr`. -/
def checkAlignment (elemSize ptr alignment : BitVec 64) : Bool :=
  if alignment == 0#64 then true
  else
    let actualAlignment := alignment * elemSize
    if !alignmentIsPowerOfTwo alignment then false
    else
      let bitMask := actualAlignment - 1#64
      (ptr &&& bitMask) == 0#64

/-- `nextAlignedSize` (`alignment.hpp:70-85`). Simplification: sizes are unbounded numbers; the C++ product wraps for
sizes above `2^64 - alignment`. -/
def nextAlignedSize (size alignment : Nat) : Nat :=
  if alignment = 0 then size
  else
    let rem := size % alignment
    if rem = 0 then size else (size / alignment + 1) * alignment

/-- A block of memory obtained from `operator new[]`. The serial number identifies the allocation. -/
structure Block where
  serial : Nat
  addr : Nat
  bytes : Nat
  deriving DecidableEq, Repr

/-- Members of `AlignedArray` (`aligned_array.hpp:181-200`): `raw` is `mRawStorage` (`none` for the null pointer) and
`data` is `mAlignedStorage`. -/
structure Arr where
  alignment : Nat
  length : Nat
  raw : Option Block
  data : Option Nat
  deriving DecidableEq, Repr

/-- Properties of the element type: `sizeof` and `alignof`. -/
structure Elem where
  size : Nat
  align : Nat

/-- `size_t` arithmetic wraps. -/
def wrap (n : Nat) : Nat := n % 2 ^ 64

/-- All arrays of a program (by name), the live heap blocks and the next serial number. -/
structure Prog where
  objs : Nat → Option Arr
  heap : List Nat
  next : Nat

/-- `AlignedArray( alignmentElements )` (`aligned_array.hpp:203-214`). -/
def Arr.empty (alignment : Nat) : Outcome Arr :=
  let a := if alignment = 0 then 1 else alignment
  if !alignmentIsPowerOfTwo (BitVec.ofNat 64 a) then .throw .invalidArgument
  else .ok ⟨a, 0, none, none⟩

/-- `deallocate()` (`aligned_array.hpp:309-316`): `delete[]` of a block that is not live is undefined behaviour,
`delete[]` of the null pointer does nothing. -/
def deallocate (heap : List Nat) (a : Arr) : Outcome (List Nat × Arr) :=
  let a' : Arr := ⟨a.alignment, 0, none, none⟩
  match a.raw with
  | none => .ok (heap, a')
  | some b => if b.serial ∈ heap then .ok (heap.erase b.serial, a') else .ub

/-- `std::align( alignment, size, ptr, space )` as specified by the standard: moves `ptr` up to the next multiple of
`alignment` if the result fits, and otherwise leaves it unchanged. -/
def stdAlign (alignment size ptr space : Nat) : Nat :=
  let p := (ptr + alignment - 1) / alignment * alignment
  if p + size ≤ ptr + space then p else ptr

/-- `allocate()` (`aligned_array.hpp:285-307`). `addr` is the address returned by `operator new[]`, `none` if it throws.
The null check after `std::align` never succeeds, because `std::align` does not change the pointer when it fails. -/
def allocate (ty : Elem) (heap : List Nat) (serial : Nat) (a : Arr) (length : Nat) (addr : Option Nat) :
    Outcome (List Nat × Arr) :=
  let worstCaseLengthElements := if ty.align = ty.size then wrap (length + a.alignment - 1) else wrap (length + a.alignment)
  match addr with
  | none => .throw .badAlloc
  | some p =>
    let retPtr := stdAlign (wrap (a.alignment * ty.size)) (wrap (length * ty.size)) p
      (wrap (worstCaseLengthElements * ty.size))
    .ok (serial :: heap, ⟨a.alignment, length, some ⟨serial, p, worstCaseLengthElements * ty.size⟩, some retPtr⟩)

/-- Operations of a program on its arrays. -/
inductive ArrOp where
  /-- `AlignedArray( length, alignment )`; the address is what `operator new[]` returns, if it is called. -/
  | create (i length alignment : Nat) (addr : Option Nat)
  | resize (i length : Nat) (addr : Option Nat)
  | swap (i j : Nat)
  /-- `objs[i] = std::move( objs[j] )`. -/
  | moveAssign (i j : Nat)
  /-- `objs[i]` constructed from `std::move( objs[j] )`. -/
  | moveConstruct (i j : Nat)
  | destroy (i : Nat)

/-- Replace the array with name `i`. -/
def Prog.set (p : Prog) (i : Nat) (a : Option Arr) : Prog :=
  { p with objs := fun k => if k = i then a else p.objs k }

/-- `swap()` (`aligned_array.hpp:273-283`) for two arrays with equal alignment. -/
def swapMembers (p : Prog) (i j : Nat) (a b : Arr) : Prog :=
  (p.set i (some { a with length := b.length, raw := b.raw, data := b.data })).set j
    (some { b with length := a.length, raw := a.raw, data := a.data })

/-- One operation of the program. Operations that name a missing array (or construct an existing one) do nothing: they
cannot be written in C++. A constructor that throws leaves no array behind. -/
def arrStep (ty : Elem) (p : Prog) : ArrOp → Prog × Outcome Unit
  | .create i length alignment addr =>
    match p.objs i with
    | some _ => (p, .ok ())
    | none =>
      match Arr.empty alignment with
      | .throw e => (p, .throw e)
      | .ub => (p, .ub)
      | .ok a =>
        if length > 0 then
          match allocate ty p.heap p.next a length addr with
          | .ok (heap, a') => ({ p.set i (some a') with heap := heap, next := p.next + 1 }, .ok ())
          | .throw e => (p, .throw e)
          | .ub => (p, .ub)
        else (p.set i (some a), .ok ())
  | .resize i length addr =>
    match p.objs i with
    | none => (p, .ok ())
    | some a =>
      match deallocate p.heap a with
      | .throw e => (p, .throw e)
      | .ub => (p, .ub)
      | .ok (heap, a') =>
        let p' := { p.set i (some a') with heap := heap }
        if length > 0 then
          match allocate ty heap p.next a' length addr with
          | .ok (heap', a'') => ({ p'.set i (some a'') with heap := heap', next := p.next + 1 }, .ok ())
          | .throw e => (p', .throw e)
          | .ub => (p', .ub)
        else (p', .ok ())
  | .swap i j =>
    match p.objs i, p.objs j with
    | some a, some b =>
      if a.alignment ≠ b.alignment then (p, .throw .logicError) else (swapMembers p i j a b, .ok ())
    | _, _ => (p, .ok ())
  | .moveAssign i j =>
    match p.objs i, p.objs j with
    | some a, some b =>
      if a.alignment ≠ b.alignment then (p, .throw .logicError)
      else
        let p' := swapMembers p i j a b
        match deallocate p'.heap { b with length := a.length, raw := a.raw, data := a.data } with
        | .throw e => (p', .throw e)
        | .ub => (p', .ub)
        | .ok (heap, b') => ({ p'.set j (some b') with heap := heap }, .ok ())
    | _, _ => (p, .ok ())
  | .moveConstruct i j =>
    match p.objs i, p.objs j with
    | none, some b =>
      match Arr.empty b.alignment with
      | .throw e => (p, .throw e)
      | .ub => (p, .ub)
      | .ok a => (swapMembers (p.set i (some a)) i j a b, .ok ())
    | _, _ => (p, .ok ())
  | .destroy i =>
    match p.objs i with
    | none => (p, .ok ())
    | some a =>
      match deallocate p.heap a with
      | .throw e => (p, .throw e)
      | .ub => (p, .ub)
      | .ok (heap, _) => ({ p.set i none with heap := heap }, .ok ())

/-- A program before it creates its first array. -/
def Prog.init : Prog := ⟨fun _ => none, [], 0⟩

end Visr.Efl
