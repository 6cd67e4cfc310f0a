import Verif.Simd.Model

/-!
# The vector functions for ARM processors with NEON instructions

`/repo/src/libefl/armv7l_neon_32bit/{vector_add,vector_multiply,vector_multiply_add,initialise_library}.cpp`.

Conventions and simplifications: memory is a partial function from cell addresses to numbers; a cell is one `float`, a complex
number occupies two cells, and a cell that is not accessible has no value. An access to such a cell is undefined. Pointers are
aligned to cells (the instructions need no more). A register is a function from lane numbers to numbers. Arithmetic is exact
(no rounding). The variables that are not initialised (e.g. `vector_add.cpp:46-47`) contain an arbitrary value, which is a
parameter of the call: one lane of such a register is loaded before it is used, and the others are computed but not stored. (In
ISO C++ even this use of an indeterminate value is undefined.) If two elements were processed before the last one, these
variables contain the former operands; since the parameter is arbitrary, it stands for them, too.
-/

namespace Visr.Neon
open Visr Simd

/-- Memory, by cell address; `none` if the cell is not accessible. -/
abbrev Memory (K : Type) := Nat → Option K

/-- A complex number: `std::complex< float >`. -/
structure Cx (K : Type) where
  re : K
  im : K
  deriving DecidableEq

/-! ### Instructions -/

section Instructions
variable {K : Type} [CommRing K]

/-- The content of a cell (0 if it is not accessible: used behind a test only). -/
def val (m : Memory K) (p : Nat) : K := (m p).getD 0

/-- All `w` cells from `p` are accessible. -/
def accessible (m : Memory K) (p w : Nat) : Bool := (List.range w).all fun i => (m (p + i)).isSome

/-- `vld1q_f32` (`w = 4`), `vld1_f32` (`w = 2`). -/
def vld1 (w : Nat) (m : Memory K) (p : Nat) : Outcome (Reg K) :=
  if accessible m p w then .ok (fun i => val m (p + i)) else .ub

/-- `vld1_lane_f32( p, r, 0 )`: the other lanes are those of `r`. -/
def vld1Lane (m : Memory K) (p : Nat) (r : Reg K) : Outcome (Reg K) :=
  if accessible m p 1 then .ok (fun i => if i = 0 then val m p else r i) else .ub

/-- `vst1q_f32` (`w = 4`), `vst1_f32` (`w = 2`), `vst1_lane_f32( p, r, 0 )` (`w = 1`). -/
def vst1 (w : Nat) (m : Memory K) (p : Nat) (r : Reg K) : Outcome (Memory K) :=
  if accessible m p w then .ok (fun q => if p ≤ q ∧ q < p + w then some (r (q - p)) else m q) else .ub

/-- `vld2q_f32` (`w = 4`), `vld2_f32` (`w = 2`): every second cell. -/
def vld2 (w : Nat) (m : Memory K) (p : Nat) : Outcome (Reg K × Reg K) :=
  if accessible m p (2 * w) then .ok (fun i => val m (p + 2 * i), fun i => val m (p + 2 * i + 1)) else .ub

/-- `vld2_lane_f32( p, r, 0 )`. -/
def vld2Lane (m : Memory K) (p : Nat) (r : Reg K × Reg K) : Outcome (Reg K × Reg K) :=
  if accessible m p 2 then
    .ok (fun i => if i = 0 then val m p else r.1 i, fun i => if i = 0 then val m (p + 1) else r.2 i)
  else .ub

/-- `vst2q_f32` (`w = 4`), `vst2_f32` (`w = 2`), `vst2_lane_f32( p, r, 0 )` (`w = 1`). -/
def vst2 (w : Nat) (m : Memory K) (p : Nat) (r : Reg K × Reg K) : Outcome (Memory K) :=
  if accessible m p (2 * w) then
    .ok (fun q => if p ≤ q ∧ q < p + 2 * w then
      some (if (q - p) % 2 = 0 then r.1 ((q - p) / 2) else r.2 ((q - p) / 2)) else m q)
  else .ub

/-- `vaddq_f32`, `vadd_f32`. -/
def vadd (a b : Reg K) : Reg K := fun i => a i + b i

/-- `vmulq_f32`, `vmul_f32`. -/
def vmul (a b : Reg K) : Reg K := fun i => a i * b i

/-- `vmlaq_f32`, `vmla_f32`: `acc + a * b`. -/
def vmla (acc a b : Reg K) : Reg K := fun i => acc i + a i * b i

/-- `vmlsq_f32`, `vmls_f32`: `acc - a * b`. -/
def vmls (acc a b : Reg K) : Reg K := fun i => acc i - a i * b i

/-- `{ c, c, c, c }`, `{ c, c }`. -/
def dup (c : K) : Reg K := fun _ => c

/-- `{ rV, iV, rV, iV }`, `{ rV, iV }` (`vector_add.cpp:270`, `:284`). -/
def alternate (re im : K) : Reg K := fun i => if i % 2 = 0 then re else im

end Instructions

/-! ### Control flow -/

/-- The pointers of a function: up to three operands and the result. -/
structure Ptrs where
  p1 : Nat
  p2 : Nat
  p3 : Nat
  y : Nat

/-- One step: it advances the pointers and changes the memory. -/
abbrev Step (K : Type) := Ptrs → Memory K → Outcome (Ptrs × Memory K)

/-- `for(; numElements >= w; numElements -= w )`. -/
def loop {K : Type} (w : Nat) (body : Step K) (cnt : Nat) (p : Ptrs) (m : Memory K) : Outcome (Nat × Ptrs × Memory K) :=
  if h : 0 < w ∧ w ≤ cnt then
    match body p m with
    | .ok (p', m') => loop w body (cnt - w) p' m'
    | .throw e => .throw e
    | .ub => .ub
  else .ok (cnt, p, m)
termination_by cnt
decreasing_by omega

/-- The control flow of most functions, e.g. `vector_add.cpp:29-75`: four elements at a time, then two, then one. -/
def run4 {K : Type} (four two one : Step K) (n : Nat) (p : Ptrs) (m : Memory K) : Outcome (Err × Memory K) := do
  let (n, p, m) ← loop 4 four n p m
  if 0 < n then
    let (n, p, m) ← (if 2 ≤ n then do
      let (p, m) ← two p m
      pure (n - 2, p, m)
    else pure (n, p, m))
    if 0 < n then
      let (_, m) ← one p m
      pure (.noError, m)
    else pure (.noError, m)
  else pure (.noError, m)

/-- The control flow of the complex additions, e.g. `vector_add.cpp:94-115`: two elements at a time, then one. -/
def run2 {K : Type} (two one : Step K) (n : Nat) (p : Ptrs) (m : Memory K) : Outcome (Err × Memory K) := do
  let (n, p, m) ← loop 2 two n p m
  if 0 < n then
    let (_, m) ← one p m
    pure (.noError, m)
  else pure (.noError, m)

/-- The tests at the beginning, for elements of `size` cells: `checkAlignment` (`alignment.hpp:44-60`, C18). -/
def checked {K : Type} (enabled : Bool) (size alignment : Nat) (ptrs : List Nat) (m : Memory K)
    (body : Outcome (Err × Memory K)) : Outcome (Err × Memory K) :=
  if enabled = true ∧ ptrs.any (fun p => check size p alignment = false) = true then .ok (.alignmentError, m) else body

/-- The values of the variables that are not initialised. -/
structure Garbage (K : Type) where
  g1 : Reg K × Reg K
  g2 : Reg K × Reg K
  g3 : Reg K × Reg K

section Functions
variable {K : Type} [CommRing K]

/-! ### `vectorAdd` -/

/-- The loop over four elements (`vector_add.cpp:36-45`). -/
def vectorAdd4 : Step K := fun p m => do
  let a1 ← vld1 4 m p.p1
  let a2 ← vld1 4 m p.p2
  let m ← vst1 4 m p.y (vadd a1 a2)
  pure (⟨p.p1 + 4, p.p2 + 4, p.p3, p.y + 4⟩, m)

/-- Two elements (`vector_add.cpp:52-62`). -/
def vectorAdd2 : Step K := fun p m => do
  let a1 ← vld1 2 m p.p1
  let a2 ← vld1 2 m p.p2
  let m ← vst1 2 m p.y (vadd a1 a2)
  pure (⟨p.p1 + 2, p.p2 + 2, p.p3, p.y + 2⟩, m)

/-- The last element (`vector_add.cpp:63-73`). -/
def vectorAdd1 (g : Garbage K) : Step K := fun p m => do
  let a1 ← vld1Lane m p.p1 g.g1.1
  let a2 ← vld1Lane m p.p2 g.g2.1
  let m ← vst1 1 m p.y (vadd a1 a2)
  pure (⟨p.p1 + 1, p.p2 + 1, p.p3, p.y + 1⟩, m)

/-- `vectorAdd< float >` (`vector_add.cpp:17-76`). -/
def vectorAdd (debug : Bool) (g : Garbage K) (addend1 addend2 result n alignment : Nat) (m : Memory K) :
    Outcome (Err × Memory K) :=
  checked debug 1 alignment [addend1, addend2, result] m (run4 vectorAdd4 vectorAdd2 (vectorAdd1 g) n ⟨addend1, addend2, 0, result⟩ m)

/-- The loop over two complex elements (`vector_add.cpp:94-103`). -/
def cVectorAdd2 : Step K := fun p m => do
  let a1 ← vld1 4 m p.p1
  let a2 ← vld1 4 m p.p2
  let m ← vst1 4 m p.y (vadd a1 a2)
  pure (⟨p.p1 + 4, p.p2 + 4, p.p3, p.y + 4⟩, m)

/-- The last complex element (`vector_add.cpp:104-114`). -/
def cVectorAdd1 : Step K := fun p m => do
  let a1 ← vld1 2 m p.p1
  let a2 ← vld1 2 m p.p2
  let m ← vst1 2 m p.y (vadd a1 a2)
  pure (⟨p.p1 + 2, p.p2 + 2, p.p3, p.y + 2⟩, m)

/-- `vectorAdd< std::complex< float > >` (`vector_add.cpp:78-116`). -/
def cVectorAdd (debug : Bool) (addend1 addend2 result n alignment : Nat) (m : Memory K) :
    Outcome (Err × Memory K) :=
  checked debug 2 alignment [addend1, addend2, result] m (run2 cVectorAdd2 cVectorAdd1 n ⟨addend1, addend2, 0, result⟩ m)

/-! ### `vectorAddInplace` -/

/-- The loop over four elements (`vector_add.cpp:133-141`). -/
def vectorAddInplace4 : Step K := fun p m => do
  let a1 ← vld1 4 m p.p1
  let a2Res ← vld1 4 m p.y
  let m ← vst1 4 m p.y (vadd a1 a2Res)
  pure (⟨p.p1 + 4, p.p2, p.p3, p.y + 4⟩, m)

/-- Two elements (`vector_add.cpp:148-157`). -/
def vectorAddInplace2 : Step K := fun p m => do
  let a1 ← vld1 2 m p.p1
  let a2Res ← vld1 2 m p.y
  let m ← vst1 2 m p.y (vadd a1 a2Res)
  pure (⟨p.p1 + 2, p.p2, p.p3, p.y + 2⟩, m)

/-- The last element (`vector_add.cpp:158-167`). -/
def vectorAddInplace1 (g : Garbage K) : Step K := fun p m => do
  let a1 ← vld1Lane m p.p1 g.g1.1
  let a2Res ← vld1Lane m p.y g.g2.1
  let m ← vst1 1 m p.y (vadd a1 a2Res)
  pure (⟨p.p1 + 1, p.p2, p.p3, p.y + 1⟩, m)

/-- `vectorAddInplace< float >` (`vector_add.cpp:118-171`). -/
def vectorAddInplace (debug : Bool) (g : Garbage K) (addend1 addend2Result n alignment : Nat) (m : Memory K) :
    Outcome (Err × Memory K) :=
  checked debug 1 alignment [addend1, addend2Result] m (run4 vectorAddInplace4 vectorAddInplace2 (vectorAddInplace1 g) n ⟨addend1, 0, 0, addend2Result⟩ m)

/-- The loop over two complex elements (`vector_add.cpp:186-194`). -/
def cVectorAddInplace2 : Step K := fun p m => do
  let a1 ← vld1 4 m p.p1
  let a2Res ← vld1 4 m p.y
  let m ← vst1 4 m p.y (vadd a1 a2Res)
  pure (⟨p.p1 + 4, p.p2, p.p3, p.y + 4⟩, m)

/-- The last complex element (`vector_add.cpp:195-203`). -/
def cVectorAddInplace1 : Step K := fun p m => do
  let a1 ← vld1 2 m p.p1
  let a2Res ← vld1 2 m p.y
  let m ← vst1 2 m p.y (vadd a1 a2Res)
  pure (⟨p.p1 + 2, p.p2, p.p3, p.y + 2⟩, m)

/-- `vectorAddInplace< std::complex< float > >` (`vector_add.cpp:173-205`). -/
def cVectorAddInplace (debug : Bool) (addend1 addend2Result n alignment : Nat) (m : Memory K) :
    Outcome (Err × Memory K) :=
  checked debug 2 alignment [addend1, addend2Result] m (run2 cVectorAddInplace2 cVectorAddInplace1 n ⟨addend1, 0, 0, addend2Result⟩ m)

/-! ### `vectorAddConstant` -/

/-- The loop over four elements (`vector_add.cpp:222-229`). -/
def vectorAddConstant4 (c : K) : Step K := fun p m => do
  let addend ← vld1 4 m p.p1
  let m ← vst1 4 m p.y (vadd addend (dup c))
  pure (⟨p.p1 + 4, p.p2, p.p3, p.y + 4⟩, m)

/-- Two elements (`vector_add.cpp:234-242`). -/
def vectorAddConstant2 (c : K) : Step K := fun p m => do
  let addend ← vld1 2 m p.p1
  let m ← vst1 2 m p.y (vadd (dup c) addend)
  pure (⟨p.p1 + 2, p.p2, p.p3, p.y + 2⟩, m)

/-- The last element (`vector_add.cpp:243-250`). -/
def vectorAddConstant1 (g : Garbage K) (c : K) : Step K := fun p m => do
  let addend ← vld1Lane m p.p1 g.g1.1
  let m ← vst1 1 m p.y (vadd (dup c) addend)
  pure (⟨p.p1 + 1, p.p2, p.p3, p.y + 1⟩, m)

/-- `vectorAddConstant< float >` (`vector_add.cpp:207-253`). -/
def vectorAddConstant (debug : Bool) (g : Garbage K) (c : K) (addend result n alignment : Nat) (m : Memory K) :
    Outcome (Err × Memory K) :=
  checked debug 1 alignment [addend, result] m (run4 (vectorAddConstant4 c) (vectorAddConstant2 c) (vectorAddConstant1 g c) n ⟨addend, 0, 0, result⟩ m)

/-- The loop over two complex elements (`vector_add.cpp:271-278`). -/
def cVectorAddConstant2 (re im : K) : Step K := fun p m => do
  let a1 ← vld1 4 m p.p1
  let m ← vst1 4 m p.y (vadd a1 (alternate re im))
  pure (⟨p.p1 + 4, p.p2, p.p3, p.y + 4⟩, m)

/-- The last complex element (`vector_add.cpp:279-288`). -/
def cVectorAddConstant1 (re im : K) : Step K := fun p m => do
  let a1 ← vld1 2 m p.p1
  let m ← vst1 2 m p.y (vadd a1 (alternate re im))
  pure (⟨p.p1 + 2, p.p2, p.p3, p.y + 2⟩, m)

/-- `vectorAddConstant< std::complex< float > >` (`vector_add.cpp:255-290`). -/
def cVectorAddConstant (debug : Bool) (re im : K) (addend result n alignment : Nat) (m : Memory K) :
    Outcome (Err × Memory K) :=
  checked debug 2 alignment [addend, result] m (run2 (cVectorAddConstant2 re im) (cVectorAddConstant1 re im) n ⟨addend, 0, 0, result⟩ m)

/-! ### `vectorAddConstantInplace` -/

/-- The loop over four elements (`vector_add.cpp:304-310`). -/
def vectorAddConstantInplace4 (c : K) : Step K := fun p m => do
  let addend ← vld1 4 m p.y
  let m ← vst1 4 m p.y (vadd addend (dup c))
  pure (⟨p.p1, p.p2, p.p3, p.y + 4⟩, m)

/-- Two elements (`vector_add.cpp:315-322`). -/
def vectorAddConstantInplace2 (c : K) : Step K := fun p m => do
  let addend ← vld1 2 m p.y
  let m ← vst1 2 m p.y (vadd (dup c) addend)
  pure (⟨p.p1, p.p2, p.p3, p.y + 2⟩, m)

/-- The last element (`vector_add.cpp:323-329`). -/
def vectorAddConstantInplace1 (g : Garbage K) (c : K) : Step K := fun p m => do
  let addend ← vld1Lane m p.y g.g1.1
  let m ← vst1 1 m p.y (vadd (dup c) addend)
  pure (⟨p.p1, p.p2, p.p3, p.y + 1⟩, m)

/-- `vectorAddConstantInplace< float >` (`vector_add.cpp:292-332`). -/
def vectorAddConstantInplace (debug : Bool) (g : Garbage K) (c : K) (addendResult n alignment : Nat) (m : Memory K) :
    Outcome (Err × Memory K) :=
  checked debug 1 alignment [addendResult] m (run4 (vectorAddConstantInplace4 c) (vectorAddConstantInplace2 c) (vectorAddConstantInplace1 g c) n ⟨0, 0, 0, addendResult⟩ m)

/-- The loop over two complex elements (`vector_add.cpp:347-353`). -/
def cVectorAddConstantInplace2 (re im : K) : Step K := fun p m => do
  let addend ← vld1 4 m p.y
  let m ← vst1 4 m p.y (vadd (alternate re im) addend)
  pure (⟨p.p1, p.p2, p.p3, p.y + 4⟩, m)

/-- The last complex element (`vector_add.cpp:354-361`). -/
def cVectorAddConstantInplace1 (re im : K) : Step K := fun p m => do
  let addend ← vld1 2 m p.y
  let m ← vst1 2 m p.y (vadd (alternate re im) addend)
  pure (⟨p.p1, p.p2, p.p3, p.y + 2⟩, m)

/-- `vectorAddConstantInplace< std::complex< float > >` (`vector_add.cpp:334-363`). -/
def cVectorAddConstantInplace (debug : Bool) (re im : K) (addendResult n alignment : Nat) (m : Memory K) :
    Outcome (Err × Memory K) :=
  checked debug 2 alignment [addendResult] m (run2 (cVectorAddConstantInplace2 re im) (cVectorAddConstantInplace1 re im) n ⟨0, 0, 0, addendResult⟩ m)

/-! ### `vectorMultiply` -/

/-- The loop over four elements (`vector_multiply.cpp:36-45`). -/
def vectorMultiply4 : Step K := fun p m => do
  let f1 ← vld1 4 m p.p1
  let f2 ← vld1 4 m p.p2
  let m ← vst1 4 m p.y (vmul f1 f2)
  pure (⟨p.p1 + 4, p.p2 + 4, p.p3, p.y + 4⟩, m)

/-- Two elements (`vector_multiply.cpp:52-62`). -/
def vectorMultiply2 : Step K := fun p m => do
  let f1 ← vld1 2 m p.p1
  let f2 ← vld1 2 m p.p2
  let m ← vst1 2 m p.y (vmul f1 f2)
  pure (⟨p.p1 + 2, p.p2 + 2, p.p3, p.y + 2⟩, m)

/-- The last element (`vector_multiply.cpp:63-73`). -/
def vectorMultiply1 (g : Garbage K) : Step K := fun p m => do
  let f1 ← vld1Lane m p.p1 g.g1.1
  let f2 ← vld1Lane m p.p2 g.g2.1
  let m ← vst1 1 m p.y (vmul f1 f2)
  pure (⟨p.p1 + 1, p.p2 + 1, p.p3, p.y + 1⟩, m)

/-- `vectorMultiply< float >` (`vector_multiply.cpp:17-76`). -/
def vectorMultiply (debug : Bool) (g : Garbage K) (factor1 factor2 result n alignment : Nat) (m : Memory K) :
    Outcome (Err × Memory K) :=
  checked debug 1 alignment [factor1, factor2, result] m (run4 vectorMultiply4 vectorMultiply2 (vectorMultiply1 g) n ⟨factor1, factor2, 0, result⟩ m)

/-- The loop over four complex elements (`vector_multiply.cpp:112-125`). -/
def cVectorMultiply4 : Step K := fun p m => do
  let f1 ← vld2 4 m p.p1
  let f2 ← vld2 4 m p.p2
  let re0 := vmul f1.1 f2.1
  let im0 := vmul f1.1 f2.2
  let re1 := vmls re0 f1.2 f2.2
  let im1 := vmla im0 f1.2 f2.1
  let m ← vst2 4 m p.y (re1, im1)
  pure (⟨p.p1 + 8, p.p2 + 8, p.p3, p.y + 8⟩, m)

/-- Two complex elements (`vector_multiply.cpp:130-144`). -/
def cVectorMultiply2 : Step K := fun p m => do
  let f1 ← vld2 2 m p.p1
  let f2 ← vld2 2 m p.p2
  let re0 := vmul f1.1 f2.1
  let im0 := vmul f1.1 f2.2
  let re1 := vmls re0 f1.2 f2.2
  let im1 := vmla im0 f1.2 f2.1
  let m ← vst2 2 m p.y (re1, im1)
  pure (⟨p.p1 + 4, p.p2 + 4, p.p3, p.y + 4⟩, m)

/-- The last complex element (`vector_multiply.cpp:145-158`). -/
def cVectorMultiply1 (g : Garbage K) : Step K := fun p m => do
  let f1 ← vld2Lane m p.p1 g.g1
  let f2 ← vld2Lane m p.p2 g.g2
  let re0 := vmul f1.1 f2.1
  let im0 := vmul f1.1 f2.2
  let re1 := vmls re0 f1.2 f2.2
  let im1 := vmla im0 f1.2 f2.1
  let m ← vst2 1 m p.y (re1, im1)
  pure (⟨p.p1 + 2, p.p2 + 2, p.p3, p.y + 2⟩, m)

/-- `vectorMultiply< std::complex< float > >` (`vector_multiply.cpp:78-162`). -/
def cVectorMultiply (debug : Bool) (g : Garbage K) (factor1 factor2 result n alignment : Nat) (m : Memory K) :
    Outcome (Err × Memory K) :=
  checked debug 2 alignment [factor1, factor2, result] m (run4 cVectorMultiply4 cVectorMultiply2 (cVectorMultiply1 g) n ⟨factor1, factor2, 0, result⟩ m)

/-! ### `vectorMultiplyInplace` -/

/-- The loop over four elements (`vector_multiply.cpp:179-187`). -/
def vectorMultiplyInplace4 : Step K := fun p m => do
  let f1 ← vld1 4 m p.p1
  let f2Res ← vld1 4 m p.y
  let m ← vst1 4 m p.y (vmul f1 f2Res)
  pure (⟨p.p1 + 4, p.p2, p.p3, p.y + 4⟩, m)

/-- Two elements (`vector_multiply.cpp:194-203`). -/
def vectorMultiplyInplace2 : Step K := fun p m => do
  let f1 ← vld1 2 m p.p1
  let f2Res ← vld1 2 m p.y
  let m ← vst1 2 m p.y (vmul f1 f2Res)
  pure (⟨p.p1 + 2, p.p2, p.p3, p.y + 2⟩, m)

/-- The last element (`vector_multiply.cpp:204-213`). -/
def vectorMultiplyInplace1 (g : Garbage K) : Step K := fun p m => do
  let f1 ← vld1Lane m p.p1 g.g1.1
  let f2Res ← vld1Lane m p.y g.g2.1
  let m ← vst1 1 m p.y (vmul f1 f2Res)
  pure (⟨p.p1 + 1, p.p2, p.p3, p.y + 1⟩, m)

/-- `vectorMultiplyInplace< float >` (`vector_multiply.cpp:164-217`). -/
def vectorMultiplyInplace (debug : Bool) (g : Garbage K) (factor1 factor2Result n alignment : Nat) (m : Memory K) :
    Outcome (Err × Memory K) :=
  checked debug 1 alignment [factor1, factor2Result] m (run4 vectorMultiplyInplace4 vectorMultiplyInplace2 (vectorMultiplyInplace1 g) n ⟨factor1, 0, 0, factor2Result⟩ m)

/-- The loop over four complex elements (`vector_multiply.cpp:232-244`). -/
def cVectorMultiplyInplace4 : Step K := fun p m => do
  let f1 ← vld2 4 m p.p1
  let f2 ← vld2 4 m p.y
  let re0 := vmul f1.1 f2.1
  let im0 := vmul f1.1 f2.2
  let re1 := vmls re0 f1.2 f2.2
  let im1 := vmla im0 f1.2 f2.1
  let m ← vst2 4 m p.y (re1, im1)
  pure (⟨p.p1 + 8, p.p2, p.p3, p.y + 8⟩, m)

/-- Two complex elements (`vector_multiply.cpp:249-262`). -/
def cVectorMultiplyInplace2 : Step K := fun p m => do
  let f1 ← vld2 2 m p.p1
  let f2 ← vld2 2 m p.y
  let re0 := vmul f1.1 f2.1
  let im0 := vmul f1.1 f2.2
  let re1 := vmls re0 f1.2 f2.2
  let im1 := vmla im0 f1.2 f2.1
  let m ← vst2 2 m p.y (re1, im1)
  pure (⟨p.p1 + 4, p.p2, p.p3, p.y + 4⟩, m)

/-- The last complex element (`vector_multiply.cpp:263-275`). -/
def cVectorMultiplyInplace1 (g : Garbage K) : Step K := fun p m => do
  let f1 ← vld2Lane m p.p1 g.g1
  let f2 ← vld2Lane m p.y g.g2
  let re0 := vmul f1.1 f2.1
  let im0 := vmul f1.1 f2.2
  let re1 := vmls re0 f1.2 f2.2
  let im1 := vmla im0 f1.2 f2.1
  let m ← vst2 1 m p.y (re1, im1)
  pure (⟨p.p1 + 2, p.p2, p.p3, p.y + 2⟩, m)

/-- `vectorMultiplyInplace< std::complex< float > >` (`vector_multiply.cpp:219-278`). -/
def cVectorMultiplyInplace (debug : Bool) (g : Garbage K) (factor1 factor2Result n alignment : Nat) (m : Memory K) :
    Outcome (Err × Memory K) :=
  checked debug 2 alignment [factor1, factor2Result] m (run4 cVectorMultiplyInplace4 cVectorMultiplyInplace2 (cVectorMultiplyInplace1 g) n ⟨factor1, 0, 0, factor2Result⟩ m)

/-! ### `vectorMultiplyConstant` -/

/-- The loop over four elements (`vector_multiply.cpp:295-302`). -/
def vectorMultiplyConstant4 (c : K) : Step K := fun p m => do
  let factor ← vld1 4 m p.p1
  let m ← vst1 4 m p.y (vmul factor (dup c))
  pure (⟨p.p1 + 4, p.p2, p.p3, p.y + 4⟩, m)

/-- Two elements (`vector_multiply.cpp:307-315`). -/
def vectorMultiplyConstant2 (c : K) : Step K := fun p m => do
  let factor ← vld1 2 m p.p1
  let m ← vst1 2 m p.y (vmul (dup c) factor)
  pure (⟨p.p1 + 2, p.p2, p.p3, p.y + 2⟩, m)

/-- The last element (`vector_multiply.cpp:316-323`). -/
def vectorMultiplyConstant1 (g : Garbage K) (c : K) : Step K := fun p m => do
  let factor ← vld1Lane m p.p1 g.g1.1
  let m ← vst1 1 m p.y (vmul (dup c) factor)
  pure (⟨p.p1 + 1, p.p2, p.p3, p.y + 1⟩, m)

/-- `vectorMultiplyConstant< float >` (`vector_multiply.cpp:280-326`). -/
def vectorMultiplyConstant (debug : Bool) (g : Garbage K) (c : K) (factor result n alignment : Nat) (m : Memory K) :
    Outcome (Err × Memory K) :=
  checked debug 1 alignment [factor, result] m (run4 (vectorMultiplyConstant4 c) (vectorMultiplyConstant2 c) (vectorMultiplyConstant1 g c) n ⟨factor, 0, 0, result⟩ m)

/-- The loop over four complex elements (`vector_multiply.cpp:345-356`). -/
def cVectorMultiplyConstant4 (re im : K) : Step K := fun p m => do
  let f1 ← vld2 4 m p.p1
  let re0 := vmul f1.1 (dup re)
  let im0 := vmul f1.1 (dup im)
  let re1 := vmls re0 f1.2 (dup im)
  let im1 := vmla im0 f1.2 (dup re)
  let m ← vst2 4 m p.y (re1, im1)
  pure (⟨p.p1 + 8, p.p2, p.p3, p.y + 8⟩, m)

/-- Two complex elements (`vector_multiply.cpp:361-373`). -/
def cVectorMultiplyConstant2 (re im : K) : Step K := fun p m => do
  let f1 ← vld2 2 m p.p1
  let re0 := vmul f1.1 (dup re)
  let im0 := vmul f1.1 (dup im)
  let re1 := vmls re0 f1.2 (dup im)
  let im1 := vmla im0 f1.2 (dup re)
  let m ← vst2 2 m p.y (re1, im1)
  pure (⟨p.p1 + 4, p.p2, p.p3, p.y + 4⟩, m)

/-- The last complex element (`vector_multiply.cpp:374-385`). -/
def cVectorMultiplyConstant1 (g : Garbage K) (re im : K) : Step K := fun p m => do
  let f1 ← vld2Lane m p.p1 g.g1
  let re0 := vmul f1.1 (dup re)
  let im0 := vmul f1.1 (dup im)
  let re1 := vmls re0 f1.2 (dup im)
  let im1 := vmla im0 f1.2 (dup re)
  let m ← vst2 1 m p.y (re1, im1)
  pure (⟨p.p1 + 2, p.p2, p.p3, p.y + 2⟩, m)

/-- `vectorMultiplyConstant< std::complex< float > >` (`vector_multiply.cpp:329-389`). -/
def cVectorMultiplyConstant (debug : Bool) (g : Garbage K) (re im : K) (factor result n alignment : Nat) (m : Memory K) :
    Outcome (Err × Memory K) :=
  checked debug 2 alignment [factor, result] m (run4 (cVectorMultiplyConstant4 re im) (cVectorMultiplyConstant2 re im) (cVectorMultiplyConstant1 g re im) n ⟨factor, 0, 0, result⟩ m)

/-! ### `vectorMultiplyConstantInplace` -/

/-- The loop over four elements (`vector_multiply.cpp:403-409`). -/
def vectorMultiplyConstantInplace4 (c : K) : Step K := fun p m => do
  let facRes ← vld1 4 m p.y
  let m ← vst1 4 m p.y (vmul facRes (dup c))
  pure (⟨p.p1, p.p2, p.p3, p.y + 4⟩, m)

/-- Two elements (`vector_multiply.cpp:414-421`). -/
def vectorMultiplyConstantInplace2 (c : K) : Step K := fun p m => do
  let facRes ← vld1 2 m p.y
  let m ← vst1 2 m p.y (vmul (dup c) facRes)
  pure (⟨p.p1, p.p2, p.p3, p.y + 2⟩, m)

/-- The last element (`vector_multiply.cpp:422-428`). -/
def vectorMultiplyConstantInplace1 (g : Garbage K) (c : K) : Step K := fun p m => do
  let facRes ← vld1Lane m p.y g.g1.1
  let m ← vst1 1 m p.y (vmul (dup c) facRes)
  pure (⟨p.p1, p.p2, p.p3, p.y + 1⟩, m)

/-- `vectorMultiplyConstantInplace< float >` (`vector_multiply.cpp:391-431`). -/
def vectorMultiplyConstantInplace (debug : Bool) (g : Garbage K) (c : K) (factorResult n alignment : Nat) (m : Memory K) :
    Outcome (Err × Memory K) :=
  checked debug 1 alignment [factorResult] m (run4 (vectorMultiplyConstantInplace4 c) (vectorMultiplyConstantInplace2 c) (vectorMultiplyConstantInplace1 g c) n ⟨0, 0, 0, factorResult⟩ m)

/-- The loop over four complex elements (`vector_multiply.cpp:446-456`). -/
def cVectorMultiplyConstantInplace4 (re im : K) : Step K := fun p m => do
  let factor ← vld2 4 m p.y
  let re0 := vmul factor.1 (dup re)
  let im0 := vmul factor.1 (dup im)
  let re1 := vmls re0 factor.2 (dup im)
  let im1 := vmla im0 factor.2 (dup re)
  let m ← vst2 4 m p.y (re1, im1)
  pure (⟨p.p1, p.p2, p.p3, p.y + 8⟩, m)

/-- Two complex elements (`vector_multiply.cpp:461-472`). -/
def cVectorMultiplyConstantInplace2 (re im : K) : Step K := fun p m => do
  let factor ← vld2 2 m p.y
  let re0 := vmul factor.1 (dup re)
  let im0 := vmul factor.1 (dup im)
  let re1 := vmls re0 factor.2 (dup im)
  let im1 := vmla im0 factor.2 (dup re)
  let m ← vst2 2 m p.y (re1, im1)
  pure (⟨p.p1, p.p2, p.p3, p.y + 4⟩, m)

/-- The last complex element (`vector_multiply.cpp:473-483`). -/
def cVectorMultiplyConstantInplace1 (g : Garbage K) (re im : K) : Step K := fun p m => do
  let factor ← vld2Lane m p.y g.g1
  let re0 := vmul factor.1 (dup re)
  let im0 := vmul factor.1 (dup im)
  let re1 := vmls re0 factor.2 (dup im)
  let im1 := vmla im0 factor.2 (dup re)
  let m ← vst2 1 m p.y (re1, im1)
  pure (⟨p.p1, p.p2, p.p3, p.y + 2⟩, m)

/-- `vectorMultiplyConstantInplace< std::complex< float > >` (`vector_multiply.cpp:433-486`). -/
def cVectorMultiplyConstantInplace (debug : Bool) (g : Garbage K) (re im : K) (factorResult n alignment : Nat) (m : Memory K) :
    Outcome (Err × Memory K) :=
  checked debug 2 alignment [factorResult] m (run4 (cVectorMultiplyConstantInplace4 re im) (cVectorMultiplyConstantInplace2 re im) (cVectorMultiplyConstantInplace1 g re im) n ⟨0, 0, 0, factorResult⟩ m)

/-! ### `vectorMultiplyAdd` -/

/-- The loop over four elements (`vector_multiply_add.cpp:38-49`). -/
def vectorMultiplyAdd4 : Step K := fun p m => do
  let f1 ← vld1 4 m p.p1
  let f2 ← vld1 4 m p.p2
  let acc ← vld1 4 m p.p3
  let m ← vst1 4 m p.y (vmla acc f1 f2)
  pure (⟨p.p1 + 4, p.p2 + 4, p.p3 + 4, p.y + 4⟩, m)

/-- Two elements (`vector_multiply_add.cpp:57-69`). -/
def vectorMultiplyAdd2 : Step K := fun p m => do
  let f1 ← vld1 2 m p.p1
  let f2 ← vld1 2 m p.p2
  let acc ← vld1 2 m p.p3
  let m ← vst1 2 m p.y (vmla acc f1 f2)
  pure (⟨p.p1 + 2, p.p2 + 2, p.p3 + 2, p.y + 2⟩, m)

/-- The last element (`vector_multiply_add.cpp:70-82`). -/
def vectorMultiplyAdd1 (g : Garbage K) : Step K := fun p m => do
  let f1 ← vld1Lane m p.p1 g.g1.1
  let f2 ← vld1Lane m p.p2 g.g2.1
  let acc ← vld1Lane m p.p3 g.g3.1
  let m ← vst1 1 m p.y (vmla acc f1 f2)
  pure (⟨p.p1 + 1, p.p2 + 1, p.p3 + 1, p.y + 1⟩, m)

/-- `vectorMultiplyAdd< float >` (`vector_multiply_add.cpp:17-85`). -/
def vectorMultiplyAdd (debug : Bool) (g : Garbage K) (factor1 factor2 addend result n alignment : Nat) (m : Memory K) :
    Outcome (Err × Memory K) :=
  checked debug 1 alignment [factor1, factor2, addend, result] m (run4 vectorMultiplyAdd4 vectorMultiplyAdd2 (vectorMultiplyAdd1 g) n ⟨factor1, factor2, addend, result⟩ m)

/-- The loop over four complex elements (`vector_multiply_add.cpp:106-120`). -/
def cVectorMultiplyAdd4 : Step K := fun p m => do
  let f1 ← vld2 4 m p.p1
  let f2 ← vld2 4 m p.p2
  let acc ← vld2 4 m p.p3
  let re0 := vmla acc.1 f1.1 f2.1
  let im0 := vmla acc.2 f1.1 f2.2
  let re1 := vmls re0 f1.2 f2.2
  let im1 := vmla im0 f1.2 f2.1
  let m ← vst2 4 m p.y (re1, im1)
  pure (⟨p.p1 + 8, p.p2 + 8, p.p3 + 8, p.y + 8⟩, m)

/-- Two complex elements (`vector_multiply_add.cpp:126-141`). -/
def cVectorMultiplyAdd2 : Step K := fun p m => do
  let f1 ← vld2 2 m p.p1
  let f2 ← vld2 2 m p.p2
  let acc ← vld2 2 m p.p3
  let re0 := vmla acc.1 f1.1 f2.1
  let im0 := vmla acc.2 f1.1 f2.2
  let re1 := vmls re0 f1.2 f2.2
  let im1 := vmla im0 f1.2 f2.1
  let m ← vst2 2 m p.y (re1, im1)
  pure (⟨p.p1 + 4, p.p2 + 4, p.p3 + 4, p.y + 4⟩, m)

/-- The last complex element (`vector_multiply_add.cpp:142-156`). -/
def cVectorMultiplyAdd1 (g : Garbage K) : Step K := fun p m => do
  let f1 ← vld2Lane m p.p1 g.g1
  let f2 ← vld2Lane m p.p2 g.g2
  let acc ← vld2Lane m p.p3 g.g3
  let re0 := vmla acc.1 f1.1 f2.1
  let im0 := vmla acc.2 f1.1 f2.2
  let re1 := vmls re0 f1.2 f2.2
  let im1 := vmla im0 f1.2 f2.1
  let m ← vst2 1 m p.y (re1, im1)
  pure (⟨p.p1 + 2, p.p2 + 2, p.p3 + 2, p.y + 2⟩, m)

/-- `vectorMultiplyAdd< std::complex< float > >` (`vector_multiply_add.cpp:87-159`). -/
def cVectorMultiplyAdd (debug : Bool) (g : Garbage K) (factor1 factor2 addend result n alignment : Nat) (m : Memory K) :
    Outcome (Err × Memory K) :=
  checked debug 2 alignment [factor1, factor2, addend, result] m (run4 cVectorMultiplyAdd4 cVectorMultiplyAdd2 (cVectorMultiplyAdd1 g) n ⟨factor1, factor2, addend, result⟩ m)

/-! ### `vectorMultiplyAddInplace` -/

/-- The loop over four elements (`vector_multiply_add.cpp:179-189`). -/
def vectorMultiplyAddInplace4 : Step K := fun p m => do
  let f1 ← vld1 4 m p.p1
  let f2 ← vld1 4 m p.p2
  let acc ← vld1 4 m p.y
  let m ← vst1 4 m p.y (vmla acc f1 f2)
  pure (⟨p.p1 + 4, p.p2 + 4, p.p3, p.y + 4⟩, m)

/-- Two elements (`vector_multiply_add.cpp:197-208`). -/
def vectorMultiplyAddInplace2 : Step K := fun p m => do
  let f1 ← vld1 2 m p.p1
  let f2 ← vld1 2 m p.p2
  let acc ← vld1 2 m p.y
  let m ← vst1 2 m p.y (vmla acc f1 f2)
  pure (⟨p.p1 + 2, p.p2 + 2, p.p3, p.y + 2⟩, m)

/-- The last element (`vector_multiply_add.cpp:209-220`). -/
def vectorMultiplyAddInplace1 (g : Garbage K) : Step K := fun p m => do
  let f1 ← vld1Lane m p.p1 g.g1.1
  let f2 ← vld1Lane m p.p2 g.g2.1
  let acc ← vld1Lane m p.y g.g3.1
  let m ← vst1 1 m p.y (vmla acc f1 f2)
  pure (⟨p.p1 + 1, p.p2 + 1, p.p3, p.y + 1⟩, m)

/-- `vectorMultiplyAddInplace< float >` (`vector_multiply_add.cpp:161-223`). -/
def vectorMultiplyAddInplace (debug : Bool) (g : Garbage K) (factor1 factor2 accumulator n alignment : Nat) (m : Memory K) :
    Outcome (Err × Memory K) :=
  checked debug 1 alignment [factor1, factor2, accumulator] m (run4 vectorMultiplyAddInplace4 vectorMultiplyAddInplace2 (vectorMultiplyAddInplace1 g) n ⟨factor1, factor2, 0, accumulator⟩ m)

/-- The loop over four complex elements (`vector_multiply_add.cpp:240-253`). -/
def cVectorMultiplyAddInplace4 : Step K := fun p m => do
  let f1 ← vld2 4 m p.p1
  let f2 ← vld2 4 m p.p2
  let acc ← vld2 4 m p.y
  let re0 := vmla acc.1 f1.1 f2.1
  let im0 := vmla acc.2 f1.1 f2.2
  let re1 := vmls re0 f1.2 f2.2
  let im1 := vmla im0 f1.2 f2.1
  let m ← vst2 4 m p.y (re1, im1)
  pure (⟨p.p1 + 8, p.p2 + 8, p.p3, p.y + 8⟩, m)

/-- Two complex elements (`vector_multiply_add.cpp:259-273`). -/
def cVectorMultiplyAddInplace2 : Step K := fun p m => do
  let f1 ← vld2 2 m p.p1
  let f2 ← vld2 2 m p.p2
  let acc ← vld2 2 m p.y
  let re0 := vmla acc.1 f1.1 f2.1
  let im0 := vmla acc.2 f1.1 f2.2
  let re1 := vmls re0 f1.2 f2.2
  let im1 := vmla im0 f1.2 f2.1
  let m ← vst2 2 m p.y (re1, im1)
  pure (⟨p.p1 + 4, p.p2 + 4, p.p3, p.y + 4⟩, m)

/-- The last complex element (`vector_multiply_add.cpp:274-287`). -/
def cVectorMultiplyAddInplace1 (g : Garbage K) : Step K := fun p m => do
  let f1 ← vld2Lane m p.p1 g.g1
  let f2 ← vld2Lane m p.p2 g.g2
  let acc ← vld2Lane m p.y g.g3
  let re0 := vmla acc.1 f1.1 f2.1
  let im0 := vmla acc.2 f1.1 f2.2
  let re1 := vmls re0 f1.2 f2.2
  let im1 := vmla im0 f1.2 f2.1
  let m ← vst2 1 m p.y (re1, im1)
  pure (⟨p.p1 + 2, p.p2 + 2, p.p3, p.y + 2⟩, m)

/-- `vectorMultiplyAddInplace< std::complex< float > >` (`vector_multiply_add.cpp:225-291`). The alignment is always checked. -/
def cVectorMultiplyAddInplace (_debug : Bool) (g : Garbage K) (factor1 factor2 accumulator n alignment : Nat) (m : Memory K) :
    Outcome (Err × Memory K) :=
  checked true 2 alignment [factor1, factor2, accumulator] m (run4 cVectorMultiplyAddInplace4 cVectorMultiplyAddInplace2 (cVectorMultiplyAddInplace1 g) n ⟨factor1, factor2, 0, accumulator⟩ m)

/-! ### `vectorMultiplyConstantAdd` -/

/-- The loop over four elements (`vector_multiply_add.cpp:313-322`). -/
def vectorMultiplyConstantAdd4 (c : K) : Step K := fun p m => do
  let f1 ← vld1 4 m p.p1
  let acc ← vld1 4 m p.p2
  let m ← vst1 4 m p.y (vmla acc f1 (dup c))
  pure (⟨p.p1 + 4, p.p2 + 4, p.p3, p.y + 4⟩, m)

/-- Two elements (`vector_multiply_add.cpp:330-340`). -/
def vectorMultiplyConstantAdd2 (c : K) : Step K := fun p m => do
  let f1 ← vld1 2 m p.p1
  let acc ← vld1 2 m p.p2
  let m ← vst1 2 m p.y (vmla acc f1 (dup c))
  pure (⟨p.p1 + 2, p.p2 + 2, p.p3, p.y + 2⟩, m)

/-- The last element (`vector_multiply_add.cpp:341-351`). -/
def vectorMultiplyConstantAdd1 (g : Garbage K) (c : K) : Step K := fun p m => do
  let f1 ← vld1Lane m p.p1 g.g1.1
  let acc ← vld1Lane m p.p2 g.g2.1
  let m ← vst1 1 m p.y (vmla acc f1 (dup c))
  pure (⟨p.p1 + 1, p.p2 + 1, p.p3, p.y + 1⟩, m)

/-- `vectorMultiplyConstantAdd< float >` (`vector_multiply_add.cpp:293-354`). -/
def vectorMultiplyConstantAdd (debug : Bool) (g : Garbage K) (c : K) (factor addend result n alignment : Nat) (m : Memory K) :
    Outcome (Err × Memory K) :=
  checked debug 1 alignment [factor, addend, result] m (run4 (vectorMultiplyConstantAdd4 c) (vectorMultiplyConstantAdd2 c) (vectorMultiplyConstantAdd1 g c) n ⟨factor, addend, 0, result⟩ m)

/-- The loop over four complex elements (`vector_multiply_add.cpp:377-389`). -/
def cVectorMultiplyConstantAdd4 (re im : K) : Step K := fun p m => do
  let f1 ← vld2 4 m p.p1
  let acc ← vld2 4 m p.p2
  let re0 := vmla acc.1 f1.1 (dup re)
  let im0 := vmla acc.2 f1.1 (dup im)
  let re1 := vmls re0 f1.2 (dup im)
  let im1 := vmla im0 f1.2 (dup re)
  let m ← vst2 4 m p.y (re1, im1)
  pure (⟨p.p1 + 8, p.p2 + 8, p.p3, p.y + 8⟩, m)

/-- Two complex elements (`vector_multiply_add.cpp:395-408`). -/
def cVectorMultiplyConstantAdd2 (re im : K) : Step K := fun p m => do
  let f1 ← vld2 2 m p.p1
  let acc ← vld2 2 m p.p2
  let re0 := vmla acc.1 f1.1 (dup re)
  let im0 := vmla acc.2 f1.1 (dup im)
  let re1 := vmls re0 f1.2 (dup im)
  let im1 := vmla im0 f1.2 (dup re)
  let m ← vst2 2 m p.y (re1, im1)
  pure (⟨p.p1 + 4, p.p2 + 4, p.p3, p.y + 4⟩, m)

/-- The last complex element (`vector_multiply_add.cpp:409-421`). -/
def cVectorMultiplyConstantAdd1 (g : Garbage K) (re im : K) : Step K := fun p m => do
  let f1 ← vld2Lane m p.p1 g.g1
  let acc ← vld2Lane m p.p2 g.g2
  let re0 := vmla acc.1 f1.1 (dup re)
  let im0 := vmla acc.2 f1.1 (dup im)
  let re1 := vmls re0 f1.2 (dup im)
  let im1 := vmla im0 f1.2 (dup re)
  let m ← vst2 1 m p.y (re1, im1)
  pure (⟨p.p1 + 2, p.p2 + 2, p.p3, p.y + 2⟩, m)

/-- `vectorMultiplyConstantAdd< std::complex< float > >` (`vector_multiply_add.cpp:356-424`). -/
def cVectorMultiplyConstantAdd (debug : Bool) (g : Garbage K) (re im : K) (factor addend result n alignment : Nat) (m : Memory K) :
    Outcome (Err × Memory K) :=
  checked debug 2 alignment [factor, addend, result] m (run4 (cVectorMultiplyConstantAdd4 re im) (cVectorMultiplyConstantAdd2 re im) (cVectorMultiplyConstantAdd1 g re im) n ⟨factor, addend, 0, result⟩ m)

/-! ### `vectorMultiplyConstantAddInplace` -/

/-- The loop over four elements (`vector_multiply_add.cpp:443-451`). -/
def vectorMultiplyConstantAddInplace4 (c : K) : Step K := fun p m => do
  let f1 ← vld1 4 m p.p1
  let acc ← vld1 4 m p.y
  let m ← vst1 4 m p.y (vmla acc f1 (dup c))
  pure (⟨p.p1 + 4, p.p2, p.p3, p.y + 4⟩, m)

/-- Two elements (`vector_multiply_add.cpp:459-468`). -/
def vectorMultiplyConstantAddInplace2 (c : K) : Step K := fun p m => do
  let f1 ← vld1 2 m p.p1
  let acc ← vld1 2 m p.y
  let m ← vst1 2 m p.y (vmla acc f1 (dup c))
  pure (⟨p.p1 + 2, p.p2, p.p3, p.y + 2⟩, m)

/-- The last element (`vector_multiply_add.cpp:469-478`). -/
def vectorMultiplyConstantAddInplace1 (g : Garbage K) (c : K) : Step K := fun p m => do
  let f1 ← vld1Lane m p.p1 g.g1.1
  let acc ← vld1Lane m p.y g.g2.1
  let m ← vst1 1 m p.y (vmla acc f1 (dup c))
  pure (⟨p.p1 + 1, p.p2, p.p3, p.y + 1⟩, m)

/-- `vectorMultiplyConstantAddInplace< float >` (`vector_multiply_add.cpp:426-481`). -/
def vectorMultiplyConstantAddInplace (debug : Bool) (g : Garbage K) (c : K) (factor accumulator n alignment : Nat) (m : Memory K) :
    Outcome (Err × Memory K) :=
  checked debug 1 alignment [factor, accumulator] m (run4 (vectorMultiplyConstantAddInplace4 c) (vectorMultiplyConstantAddInplace2 c) (vectorMultiplyConstantAddInplace1 g c) n ⟨factor, 0, 0, accumulator⟩ m)

/-- The loop over four complex elements (`vector_multiply_add.cpp:501-512`). -/
def cVectorMultiplyConstantAddInplace4 (re im : K) : Step K := fun p m => do
  let f1 ← vld2 4 m p.p1
  let acc ← vld2 4 m p.y
  let re0 := vmla acc.1 f1.1 (dup re)
  let im0 := vmla acc.2 f1.1 (dup im)
  let re1 := vmls re0 f1.2 (dup im)
  let im1 := vmla im0 f1.2 (dup re)
  let m ← vst2 4 m p.y (re1, im1)
  pure (⟨p.p1 + 8, p.p2, p.p3, p.y + 8⟩, m)

/-- Two complex elements (`vector_multiply_add.cpp:518-530`). -/
def cVectorMultiplyConstantAddInplace2 (re im : K) : Step K := fun p m => do
  let f1 ← vld2 2 m p.p1
  let acc ← vld2 2 m p.y
  let re0 := vmla acc.1 f1.1 (dup re)
  let im0 := vmla acc.2 f1.1 (dup im)
  let re1 := vmls re0 f1.2 (dup im)
  let im1 := vmla im0 f1.2 (dup re)
  let m ← vst2 2 m p.y (re1, im1)
  pure (⟨p.p1 + 4, p.p2, p.p3, p.y + 4⟩, m)

/-- The last complex element (`vector_multiply_add.cpp:531-542`). -/
def cVectorMultiplyConstantAddInplace1 (g : Garbage K) (re im : K) : Step K := fun p m => do
  let f1 ← vld2Lane m p.p1 g.g1
  let acc ← vld2Lane m p.y g.g2
  let re0 := vmla acc.1 f1.1 (dup re)
  let im0 := vmla acc.2 f1.1 (dup im)
  let re1 := vmls re0 f1.2 (dup im)
  let im1 := vmla im0 f1.2 (dup re)
  let m ← vst2 1 m p.y (re1, im1)
  pure (⟨p.p1 + 2, p.p2, p.p3, p.y + 2⟩, m)

/-- `vectorMultiplyConstantAddInplace< std::complex< float > >` (`vector_multiply_add.cpp:483-545`). -/
def cVectorMultiplyConstantAddInplace (debug : Bool) (g : Garbage K) (re im : K) (factor accumulator n alignment : Nat) (m : Memory K) :
    Outcome (Err × Memory K) :=
  checked debug 2 alignment [factor, accumulator] m (run4 (cVectorMultiplyConstantAddInplace4 re im) (cVectorMultiplyConstantAddInplace2 re im) (cVectorMultiplyConstantAddInplace1 g re im) n ⟨factor, 0, 0, accumulator⟩ m)

/-! ### Selection of the functions -/

/-- The operations. -/
inductive Op where
  | add
  | addConstant
  | multiply
  | multiplyConstant
  | multiplyAdd
  | multiplyConstantAdd
  deriving DecidableEq

/-- A function: the operation, whether the result replaces the last operand, and the element type. -/
structure Fn where
  op : Op
  inplace : Bool
  complex : Bool
  deriving DecidableEq

/-- The arguments of a call. In place, the last operand is not passed. -/
structure Args (K : Type) where
  c : Cx K
  p1 : Nat
  p2 : Nat
  p3 : Nat
  y : Nat
  n : Nat
  alignment : Nat

/-- A call of a function of this library; `debug` if `NDEBUG` is not defined. -/
def call (debug : Bool) (g : Garbage K) (fn : Fn) (a : Args K) (m : Memory K) : Outcome (Err × Memory K) :=
  match fn with
  | ⟨.add, false, false⟩ => vectorAdd debug g a.p1 a.p2 a.y a.n a.alignment m
  | ⟨.add, false, true⟩ => cVectorAdd debug a.p1 a.p2 a.y a.n a.alignment m
  | ⟨.add, true, false⟩ => vectorAddInplace debug g a.p1 a.y a.n a.alignment m
  | ⟨.add, true, true⟩ => cVectorAddInplace debug a.p1 a.y a.n a.alignment m
  | ⟨.addConstant, false, false⟩ => vectorAddConstant debug g a.c.re a.p1 a.y a.n a.alignment m
  | ⟨.addConstant, false, true⟩ => cVectorAddConstant debug a.c.re a.c.im a.p1 a.y a.n a.alignment m
  | ⟨.addConstant, true, false⟩ => vectorAddConstantInplace debug g a.c.re a.y a.n a.alignment m
  | ⟨.addConstant, true, true⟩ => cVectorAddConstantInplace debug a.c.re a.c.im a.y a.n a.alignment m
  | ⟨.multiply, false, false⟩ => vectorMultiply debug g a.p1 a.p2 a.y a.n a.alignment m
  | ⟨.multiply, false, true⟩ => cVectorMultiply debug g a.p1 a.p2 a.y a.n a.alignment m
  | ⟨.multiply, true, false⟩ => vectorMultiplyInplace debug g a.p1 a.y a.n a.alignment m
  | ⟨.multiply, true, true⟩ => cVectorMultiplyInplace debug g a.p1 a.y a.n a.alignment m
  | ⟨.multiplyConstant, false, false⟩ => vectorMultiplyConstant debug g a.c.re a.p1 a.y a.n a.alignment m
  | ⟨.multiplyConstant, false, true⟩ => cVectorMultiplyConstant debug g a.c.re a.c.im a.p1 a.y a.n a.alignment m
  | ⟨.multiplyConstant, true, false⟩ => vectorMultiplyConstantInplace debug g a.c.re a.y a.n a.alignment m
  | ⟨.multiplyConstant, true, true⟩ => cVectorMultiplyConstantInplace debug g a.c.re a.c.im a.y a.n a.alignment m
  | ⟨.multiplyAdd, false, false⟩ => vectorMultiplyAdd debug g a.p1 a.p2 a.p3 a.y a.n a.alignment m
  | ⟨.multiplyAdd, false, true⟩ => cVectorMultiplyAdd debug g a.p1 a.p2 a.p3 a.y a.n a.alignment m
  | ⟨.multiplyAdd, true, false⟩ => vectorMultiplyAddInplace debug g a.p1 a.p2 a.y a.n a.alignment m
  | ⟨.multiplyAdd, true, true⟩ => cVectorMultiplyAddInplace debug g a.p1 a.p2 a.y a.n a.alignment m
  | ⟨.multiplyConstantAdd, false, false⟩ => vectorMultiplyConstantAdd debug g a.c.re a.p1 a.p2 a.y a.n a.alignment m
  | ⟨.multiplyConstantAdd, false, true⟩ => cVectorMultiplyConstantAdd debug g a.c.re a.c.im a.p1 a.p2 a.y a.n a.alignment m
  | ⟨.multiplyConstantAdd, true, false⟩ => vectorMultiplyConstantAddInplace debug g a.c.re a.p1 a.y a.n a.alignment m
  | ⟨.multiplyConstantAdd, true, true⟩ => cVectorMultiplyConstantAddInplace debug g a.c.re a.c.im a.p1 a.y a.n a.alignment m

end Functions

/-- The function wrappers (`function_wrapper.hpp:22-35`): which functions are those of this library; the others are the reference
functions. -/
abbrev Table := Fn → Bool

/-- `initialiseLibrary` (`initialise_library.cpp:16-47`): all functions are set. -/
def initialiseLibrary (_ : Table) : Table := fun _ => true

/-- `uninitialiseLibrary` (`initialise_library.cpp:49-79`): all functions are set back. -/
def uninitialiseLibrary (_ : Table) : Table := fun _ => false

end Visr.Neon
