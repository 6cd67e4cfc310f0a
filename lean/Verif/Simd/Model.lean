import Verif.Outcome
import Verif.Efl.Aligned
import Mathlib.Algebra.Ring.Defs
import Mathlib.Algebra.Group.Basic

/-!
# The vectorised signal processing functions

Models `src/libefl/intel_x86_64/{vector_multiply,vector_multiply_add,vector_ramp_scaling,initialise_library}.cpp` and the
functions of `src/libefl/reference/vector_functions_impl.hpp` that they replace.

Memory is a function from cell addresses to numbers. A cell is one `float` (or one `double` in the `double` functions); a
complex number occupies two cells. All arguments of a call point into the same memory, so that they may overlap. Pointers
are aligned to cells. A register is a function from lane numbers to numbers. Arithmetic is exact (no rounding): a fused
multiplication and addition differs from its two-step form in rounding only. Instructions that need aligned addresses
fault otherwise (`Outcome.ub`).
-/

namespace Visr.Simd
open Visr

/-- Memory, by cell address. -/
abbrev Mem (K : Type) := Nat → K

/-- A vector register, by lane. -/
abbrev Reg (K : Type) := Nat → K

/-- `efl::ErrorCode` (`error_codes.hpp`), the values used here. -/
inductive Err where
  | noError
  | alignmentError
  deriving DecidableEq

/-- The instruction sets for which the functions are compiled (`intel_x86_64/CMakeLists.txt:51-53`,
`vector_functions.hpp:17-22`). -/
inductive Feature where
  | fma
  | avx
  | sse
  deriving DecidableEq

/-- `__AVX__` is defined. -/
def Feature.hasAvx : Feature → Bool
  | .sse => false
  | _ => true

/-- `__AVX2__` is defined. -/
def Feature.hasAvx2 : Feature → Bool
  | .fma => true
  | _ => false

/-! ### Instructions -/

section Instructions
variable {K : Type} [CommRing K]

/-- `_mm_loadu_ps`, `_mm256_loadu_ps`, `_mm_loadu_pd`, `_mm256_loadu_pd`. -/
def loadu (m : Mem K) (p : Nat) : Reg K := fun i => m (p + i)

/-- `_mm_load_ps`, `_mm256_load_ps`, `_mm256_load_pd` with `w` cells: the address must be a multiple of the width. -/
def load (w : Nat) (m : Mem K) (p : Nat) : Outcome (Reg K) := if p % w = 0 then .ok (loadu m p) else .ub

/-- Load aligned or unaligned. -/
def loadIf (aligned : Bool) (w : Nat) (m : Mem K) (p : Nat) : Outcome (Reg K) :=
  if aligned = true then load w m p else .ok (loadu m p)

/-- `_mm_load_ss`, `_mm_load_sd`. -/
def loadS (m : Mem K) (p : Nat) : Reg K := fun i => if i = 0 then m p else 0

/-- `_mm_loadl_pi`: the lower two lanes. -/
def loadl (x : Reg K) (m : Mem K) (p : Nat) : Reg K := fun i => if i < 2 then m (p + i) else x i

/-- `_mm_storeu_ps` and others with `w` cells; `_mm_store_ss` (`w = 1`), `_mm_storel_pi` (`w = 2`). -/
def storeu (w : Nat) (m : Mem K) (p : Nat) (r : Reg K) : Mem K :=
  fun q => if p ≤ q ∧ q < p + w then r (q - p) else m q

/-- `_mm_store_ps`, `_mm256_store_ps`, `_mm256_store_pd`. -/
def store (w : Nat) (m : Mem K) (p : Nat) (r : Reg K) : Outcome (Mem K) :=
  if p % w = 0 then .ok (storeu w m p r) else .ub

/-- Store aligned or unaligned. -/
def storeIf (aligned : Bool) (w : Nat) (m : Mem K) (p : Nat) (r : Reg K) : Outcome (Mem K) :=
  if aligned = true then store w m p r else .ok (storeu w m p r)

/-- `_mm_set_ps1`, `_mm256_broadcast_ss`, `_mm_broadcast_ss`. -/
def broadcast (c : K) : Reg K := fun _ => c

/-- `_mm_mul_ps` and others. Simplification: also used for `_mm_mul_ss` and `_mm_mul_sd`, whose upper lanes differ but are
not stored. -/
def mul (a b : Reg K) : Reg K := fun i => a i * b i

/-- `_mm_add_ps` and others, as `mul`. -/
def add (a b : Reg K) : Reg K := fun i => a i + b i

/-- `_mm_fmadd_ps` and others: `a * b + c` with one rounding. -/
def fmadd (a b c : Reg K) : Reg K := fun i => a i * b i + c i

/-- `_mm_addsub_ps`, `_mm256_addsub_ps`: even lanes are subtracted, odd lanes are added. -/
def addsub (a b : Reg K) : Reg K := fun i => if i % 2 = 0 then a i - b i else a i + b i

/-- `_mm_permute_ps( a, imm )`, `_mm256_permute_ps`, and `_mm_shuffle_ps( a, a, imm )`: in each group of four lanes, lane
`j` is taken from the lane given by bits `2 j` and `2 j + 1` of `imm`. -/
def permute (a : Reg K) (imm : Nat) : Reg K := fun i => a (4 * (i / 4) + imm / 4 ^ (i % 4) % 4)

/-- `a * b + c`: fused if the instruction set allows it (e.g. `vector_multiply_add.cpp:51-56`). -/
def mulAdd (f : Feature) (a b c : Reg K) : Reg K := if f.hasAvx2 = true then fmadd a b c else add (mul a b) c

end Instructions

/-! ### Control flow -/

/-- The pointers of a loop. -/
structure Ptr where
  p1 : Nat
  p2 : Nat
  y : Nat

/-- Advance all pointers. -/
def Ptr.advance (p : Ptr) (k1 k2 ky : Nat) : Ptr := ⟨p.p1 + k1, p.p2 + k2, p.y + ky⟩

/-- `while( cnt >= w ) { body; cnt -= w; }`. -/
def loop {K : Type} (w : Nat) (body : Ptr → Mem K → Outcome (Ptr × Mem K)) (cnt : Nat) (p : Ptr) (m : Mem K) :
    Outcome (Nat × Ptr × Mem K) :=
  if h : 0 < w ∧ w ≤ cnt then
    match body p m with
    | .ok (p', m') => loop w body (cnt - w) p' m'
    | .throw e => .throw e
    | .ub => .ub
  else .ok (cnt, p, m)
termination_by cnt
decreasing_by omega

/-- A loop that is skipped unless `c` (compiled out by `#ifdef`, or under an `if`). -/
def loopIf {K : Type} (c : Bool) (w : Nat) (body : Ptr → Mem K → Outcome (Ptr × Mem K)) (cnt : Nat) (p : Ptr) (m : Mem K) :
    Outcome (Nat × Ptr × Mem K) :=
  if c = true then loop w body cnt p m else .ok (cnt, p, m)

/-- `checkAlignment` (`alignment.hpp:44-60`) of a pointer to elements of `size` cells: C18 (`checkAlignment_iff`) proves
that the bit test is this divisibility. -/
def check (size : Nat) (p alignment : Nat) : Bool :=
  decide (alignment = 0) ||
    (Efl.alignmentIsPowerOfTwo (BitVec.ofNat 64 alignment) && decide (p % (alignment * size) = 0))

section Functions
variable {K : Type} [CommRing K]

/-! ### Multiplication -/

/-- Body of the vector loops of `vectorMultiply` (`vector_multiply.cpp:44-54`, `:58-68`, `:106-116`, `:120-130`). -/
def multiplyBody (aligned : Bool) (w : Nat) (p : Ptr) (m : Mem K) : Outcome (Ptr × Mem K) := do
  let a ← loadIf aligned w m p.p1
  let b ← loadIf aligned w m p.p2
  let m ← storeIf aligned w m p.y (mul a b)
  pure (p.advance w w w, m)

/-- Body of the scalar loops (`vector_multiply.cpp:72-82`, `:133-143`). -/
def multiplyScalar (p : Ptr) (m : Mem K) : Outcome (Ptr × Mem K) :=
  .ok (p.advance 1 1 1, storeu 1 m p.y (mul (loadS m p.p1) (loadS m p.p2)))

/-- `vectorMultiply< float, f >` (`vector_multiply.cpp:24-84`, `w = 8`) and `vectorMultiply< double, f >` (`:86-145`,
`w = 4`). -/
def vectorMultiply (f : Feature) (w : Nat) (factor1 factor2 result n alignment : Nat) (m : Mem K) :
    Outcome (Err × Mem K) :=
  if check 1 factor1 alignment = false then .ok (.alignmentError, m)
  else if check 1 factor2 alignment = false then .ok (.alignmentError, m)
  else if check 1 result alignment = false then .ok (.alignmentError, m)
  else do
    let p : Ptr := ⟨factor1, factor2, result⟩
    let (cnt, p, m) ← loopIf f.hasAvx w (multiplyBody (decide (w ≤ alignment)) w) n p m
    let (_, _, m) ← loop 1 multiplyScalar cnt p m
    pure (.noError, m)

/-- `reference::vectorMultiply` (`vector_functions_impl.hpp:205-220`) for real elements: the loop from index `idx`, with
`k` elements left. -/
def refMultiplyLoop (factor1 factor2 result : Nat) : Nat → Nat → Mem K → Mem K
  | 0, _, m => m
  | k + 1, idx, m =>
    refMultiplyLoop factor1 factor2 result k (idx + 1)
      (Function.update m (result + idx) (m (factor1 + idx) * m (factor2 + idx)))

/-- `reference::vectorMultiply` for real elements. -/
def refMultiply (factor1 factor2 result n alignment : Nat) (m : Mem K) : Outcome (Err × Mem K) :=
  if check 1 factor1 alignment = false then .ok (.alignmentError, m)
  else if check 1 factor2 alignment = false then .ok (.alignmentError, m)
  else if check 1 result alignment = false then .ok (.alignmentError, m)
  else .ok (.noError, refMultiplyLoop factor1 factor2 result n 0 m)

/-- The complex product of the vector loops, in groups of two lanes (`vector_multiply.cpp:171-176`, `:191-196`, `:216-221`). -/
def complexProduct (a b : Reg K) : Reg K :=
  let aHigh := permute a 0xA0
  let a := permute a 0xF5
  let partRes1 := mul b aHigh
  let b := permute b 0xB1
  let partRes2 := mul b a
  addsub partRes1 partRes2

/-- The complex product of the scalar loops (`vector_multiply.cpp:235-244`): the first factor is given by its real and
imaginary part. -/
def complexProductScalar (re im : K) (m : Mem K) (p : Nat) : Reg K :=
  let cReal := broadcast re
  let cImag := broadcast im
  let ab := loadl cReal m p
  let acbc := mul cReal ab
  let ba := permute ab 0xB1
  let bdad := mul cImag ba
  addsub acbc bdad

/-- Body of the loops of `vectorMultiply< std::complex< float > >` over four elements (`vector_multiply.cpp:167-183`,
`:187-202`). -/
def cMultiplyBody4 (aligned : Bool) (p : Ptr) (m : Mem K) : Outcome (Ptr × Mem K) := do
  let a ← loadIf aligned 8 m p.p1
  let b ← loadIf aligned 8 m p.p2
  let m ← storeIf aligned 8 m p.y (complexProduct a b)
  pure (p.advance 8 8 8, m)

/-- Body of the loop over two elements (`vector_multiply.cpp:212-227`): unaligned loads, aligned store. -/
def cMultiplyBody2 (p : Ptr) (m : Mem K) : Outcome (Ptr × Mem K) := do
  let m ← store 4 m p.y (complexProduct (loadu m p.p1) (loadu m p.p2))
  pure (p.advance 4 4 4, m)

/-- Body of the scalar loop (`vector_multiply.cpp:233-251`). -/
def cMultiplyScalar (p : Ptr) (m : Mem K) : Outcome (Ptr × Mem K) :=
  .ok (p.advance 2 2 2, storeu 2 m p.y (complexProductScalar (m p.p1) (m (p.p1 + 1)) m p.p2))

/-- `vectorMultiply< std::complex< float >, f >` (`vector_multiply.cpp:147-254`). -/
def cVectorMultiply (f : Feature) (factor1 factor2 result n alignment : Nat) (m : Mem K) : Outcome (Err × Mem K) :=
  if check 2 factor1 alignment = false then .ok (.alignmentError, m)
  else if check 2 factor2 alignment = false then .ok (.alignmentError, m)
  else if check 2 result alignment = false then .ok (.alignmentError, m)
  else do
    let p : Ptr := ⟨factor1, factor2, result⟩
    let (cnt, p, m) ← loopIf f.hasAvx 4 (cMultiplyBody4 (decide (4 ≤ alignment))) n p m
    let (cnt, p, m) ← loopIf (f.hasAvx && decide (2 ≤ alignment)) 2 cMultiplyBody2 cnt p m
    let (_, _, m) ← loop 1 cMultiplyScalar cnt p m
    pure (.noError, m)

/-- Write a complex number. -/
def setComplex (m : Mem K) (p : Nat) (re im : K) : Mem K := Function.update (Function.update m p re) (p + 1) im

/-- `reference::vectorMultiply` (`vector_functions_impl.hpp:205-220`) for complex elements. -/
def refCMultiplyLoop (factor1 factor2 result : Nat) : Nat → Nat → Mem K → Mem K
  | 0, _, m => m
  | k + 1, idx, m =>
    let a := factor1 + 2 * idx
    let b := factor2 + 2 * idx
    refCMultiplyLoop factor1 factor2 result k (idx + 1)
      (setComplex m (result + 2 * idx) (m a * m b - m (a + 1) * m (b + 1)) (m a * m (b + 1) + m (a + 1) * m b))

/-- `reference::vectorMultiply` for complex elements. -/
def refCMultiply (factor1 factor2 result n alignment : Nat) (m : Mem K) : Outcome (Err × Mem K) :=
  if check 2 factor1 alignment = false then .ok (.alignmentError, m)
  else if check 2 factor2 alignment = false then .ok (.alignmentError, m)
  else if check 2 result alignment = false then .ok (.alignmentError, m)
  else .ok (.noError, refCMultiplyLoop factor1 factor2 result n 0 m)

/-! ### Multiplication and addition -/

/-- Body of the vector loops of `vectorMultiplyAddInplace` (`vector_multiply_add.cpp:43-59`, `:63-79`, `:86-102`; double:
`:142-158`, `:162-178`, `:185-202`). -/
def multiplyAddBody (f : Feature) (aligned : Bool) (w : Nat) (p : Ptr) (m : Mem K) : Outcome (Ptr × Mem K) := do
  let a ← loadIf aligned w m p.p1
  let b ← loadIf aligned w m p.p2
  let acc ← loadIf aligned w m p.y
  let m ← storeIf aligned w m p.y (mulAdd f a b acc)
  pure (p.advance w w w, m)

/-- Body of the scalar loops (`vector_multiply_add.cpp:103-119`, `:203-219`). -/
def multiplyAddScalar (f : Feature) (p : Ptr) (m : Mem K) : Outcome (Ptr × Mem K) :=
  .ok (p.advance 1 1 1, storeu 1 m p.y (mulAdd f (loadS m p.p1) (loadS m p.p2) (loadS m p.y)))

/-- `vectorMultiplyAddInplace< float, f >` (`vector_multiply_add.cpp:24-121`, `w = 8`) and `< double, f >` (`:123-221`,
`w = 4`). -/
def vectorMultiplyAddInplace (f : Feature) (w : Nat) (factor1 factor2 accumulator n alignment : Nat) (m : Mem K) :
    Outcome (Err × Mem K) :=
  if check 1 factor1 alignment = false then .ok (.alignmentError, m)
  else if check 1 factor2 alignment = false then .ok (.alignmentError, m)
  else if check 1 accumulator alignment = false then .ok (.alignmentError, m)
  else do
    let p : Ptr := ⟨factor1, factor2, accumulator⟩
    let (cnt, p, m) ← loopIf f.hasAvx w (multiplyAddBody f (decide (w ≤ alignment)) w) n p m
    let (cnt, p, m) ← loop (w / 2) (multiplyAddBody f false (w / 2)) cnt p m
    let (_, _, m) ← loop 1 (multiplyAddScalar f) cnt p m
    pure (.noError, m)

/-- `reference::vectorMultiplyAddInplace` (`vector_functions_impl.hpp:286-301`) for real elements. -/
def refMultiplyAddLoop (factor1 factor2 accumulator : Nat) : Nat → Nat → Mem K → Mem K
  | 0, _, m => m
  | k + 1, idx, m =>
    refMultiplyAddLoop factor1 factor2 accumulator k (idx + 1)
      (Function.update m (accumulator + idx) (m (accumulator + idx) + m (factor1 + idx) * m (factor2 + idx)))

/-- `reference::vectorMultiplyAddInplace` for real elements. -/
def refMultiplyAdd (factor1 factor2 accumulator n alignment : Nat) (m : Mem K) : Outcome (Err × Mem K) :=
  if check 1 factor1 alignment = false then .ok (.alignmentError, m)
  else if check 1 factor2 alignment = false then .ok (.alignmentError, m)
  else if check 1 accumulator alignment = false then .ok (.alignmentError, m)
  else .ok (.noError, refMultiplyAddLoop factor1 factor2 accumulator n 0 m)

/-- Body of the loops of `vectorMultiplyAddInplace< std::complex< float > >` over four elements
(`vector_multiply_add.cpp:245-263`, `:267-284`). -/
def cMultiplyAddBody4 (aligned : Bool) (p : Ptr) (m : Mem K) : Outcome (Ptr × Mem K) := do
  let a ← loadIf aligned 8 m p.p1
  let b ← loadIf aligned 8 m p.p2
  let acc ← loadIf aligned 8 m p.y
  let m ← storeIf aligned 8 m p.y (add (complexProduct a b) acc)
  pure (p.advance 8 8 8, m)

/-- Body of the loop over two elements (`vector_multiply_add.cpp:294-311`): aligned. -/
def cMultiplyAddBody2 (p : Ptr) (m : Mem K) : Outcome (Ptr × Mem K) := do
  let a ← load 4 m p.p1
  let b ← load 4 m p.p2
  let acc ← load 4 m p.y
  let m ← store 4 m p.y (add acc (complexProduct a b))
  pure (p.advance 4 4 4, m)

/-- Body of the scalar loop (`vector_multiply_add.cpp:316-336`). -/
def cMultiplyAddScalar (p : Ptr) (m : Mem K) : Outcome (Ptr × Mem K) :=
  .ok (p.advance 2 2 2, storeu 2 m p.y
    (add (complexProductScalar (m p.p1) (m (p.p1 + 1)) m p.p2) (loadl (broadcast (m p.p1)) m p.y)))

/-- `vectorMultiplyAddInplace< std::complex< float >, f >` (`vector_multiply_add.cpp:226-339`). -/
def cVectorMultiplyAddInplace (f : Feature) (factor1 factor2 accumulator n alignment : Nat) (m : Mem K) :
    Outcome (Err × Mem K) :=
  if check 2 factor1 alignment = false then .ok (.alignmentError, m)
  else if check 2 factor2 alignment = false then .ok (.alignmentError, m)
  else if check 2 accumulator alignment = false then .ok (.alignmentError, m)
  else do
    let p : Ptr := ⟨factor1, factor2, accumulator⟩
    let (cnt, p, m) ← loopIf f.hasAvx 4 (cMultiplyAddBody4 (decide (4 ≤ alignment))) n p m
    let (cnt, p, m) ← loopIf (f.hasAvx && decide (2 ≤ alignment)) 2 cMultiplyAddBody2 cnt p m
    let (_, _, m) ← loop 1 cMultiplyAddScalar cnt p m
    pure (.noError, m)

/-- `reference::vectorMultiplyAddInplace` (`vector_functions_impl.hpp:286-301`) for complex elements. -/
def refCMultiplyAddLoop (factor1 factor2 accumulator : Nat) : Nat → Nat → Mem K → Mem K
  | 0, _, m => m
  | k + 1, idx, m =>
    let a := factor1 + 2 * idx
    let b := factor2 + 2 * idx
    let y := accumulator + 2 * idx
    refCMultiplyAddLoop factor1 factor2 accumulator k (idx + 1)
      (setComplex m y (m y + (m a * m b - m (a + 1) * m (b + 1))) (m (y + 1) + (m a * m (b + 1) + m (a + 1) * m b)))

/-- `reference::vectorMultiplyAddInplace` for complex elements. -/
def refCMultiplyAdd (factor1 factor2 accumulator n alignment : Nat) (m : Mem K) : Outcome (Err × Mem K) :=
  if check 2 factor1 alignment = false then .ok (.alignmentError, m)
  else if check 2 factor2 alignment = false then .ok (.alignmentError, m)
  else if check 2 accumulator alignment = false then .ok (.alignmentError, m)
  else .ok (.noError, refCMultiplyAddLoop factor1 factor2 accumulator n 0 m)

/-! ### Multiplication with a constant and addition -/

/-- Body of the eight element loops of `vectorMultiplyConstantAddInplace< float >` (`vector_multiply_add.cpp:357-371`,
`:375-389`). The factor is `p1`. -/
def constAddBody8 (f : Feature) (c : K) (aligned : Bool) (p : Ptr) (m : Mem K) : Outcome (Ptr × Mem K) := do
  let a ← loadIf aligned 8 m p.p1
  let acc ← loadIf aligned 8 m p.y
  let m ← storeIf aligned 8 m p.y (mulAdd f a (broadcast c) acc)
  pure (p.advance 8 0 8, m)

/-- Body of the four element loop (`vector_multiply_add.cpp:400-415`): unaligned loads, **aligned** store. -/
def constAddBody4 (f : Feature) (c : K) (p : Ptr) (m : Mem K) : Outcome (Ptr × Mem K) := do
  let a := loadu m p.p1
  let acc := loadu m p.y
  let m ← store 4 m p.y (mulAdd f a (broadcast c) acc)
  pure (p.advance 4 0 4, m)

/-- Body of the scalar loop (`vector_multiply_add.cpp:416-430`). -/
def constAddScalar (f : Feature) (c : K) (p : Ptr) (m : Mem K) : Outcome (Ptr × Mem K) :=
  .ok (p.advance 1 0 1, storeu 1 m p.y (mulAdd f (loadS m p.p1) (broadcast c) (loadS m p.y)))

/-- `vectorMultiplyConstantAddInplace< float, f >` (`vector_multiply_add.cpp:341-432`). There is no check of the
alignment. -/
def vectorMultiplyConstantAddInplace (f : Feature) (c : K) (factor accumulator n alignment : Nat) (m : Mem K) :
    Outcome (Err × Mem K) := do
  let p : Ptr := ⟨factor, 0, accumulator⟩
  let (cnt, p, m) ← loopIf f.hasAvx 8 (constAddBody8 f c (decide (8 ≤ alignment))) n p m
  let (cnt, p, m) ← loop 4 (constAddBody4 f c) cnt p m
  let (_, _, m) ← loop 1 (constAddScalar f c) cnt p m
  pure (.noError, m)

/-- `reference::vectorMultiplyConstantAddInplace` (`vector_functions_impl.hpp:321-335`) for real elements. -/
def refConstAddLoop (c : K) (factor accumulator : Nat) : Nat → Nat → Mem K → Mem K
  | 0, _, m => m
  | k + 1, idx, m =>
    refConstAddLoop c factor accumulator k (idx + 1)
      (Function.update m (accumulator + idx) (m (accumulator + idx) + c * m (factor + idx)))

/-- `reference::vectorMultiplyConstantAddInplace` for real elements. -/
def refConstAdd (c : K) (factor accumulator n alignment : Nat) (m : Mem K) : Outcome (Err × Mem K) :=
  if check 1 factor alignment = false then .ok (.alignmentError, m)
  else if check 1 accumulator alignment = false then .ok (.alignmentError, m)
  else .ok (.noError, refConstAddLoop c factor accumulator n 0 m)

/-- The product with a complex constant (`vector_multiply_add.cpp:455-459`). -/
def constProduct (re im : K) (ab : Reg K) : Reg K :=
  let acbc := mul (broadcast re) ab
  let ba := permute ab 0xB1
  let bdad := mul (broadcast im) ba
  addsub acbc bdad

/-- Body of the loops of `vectorMultiplyConstantAddInplace< std::complex< float > >` over four elements
(`vector_multiply_add.cpp:452-465`, `:469-482`). -/
def cConstAddBody4 (re im : K) (aligned : Bool) (p : Ptr) (m : Mem K) : Outcome (Ptr × Mem K) := do
  let ab ← loadIf aligned 8 m p.p1
  let acc ← loadIf aligned 8 m p.y
  let m ← storeIf aligned 8 m p.y (add (constProduct re im ab) acc)
  pure (p.advance 8 0 8, m)

/-- Body of the loop over two elements (`vector_multiply_add.cpp:494-507`). -/
def cConstAddBody2 (re im : K) (p : Ptr) (m : Mem K) : Outcome (Ptr × Mem K) := do
  let ab ← load 4 m p.p1
  let acc ← load 4 m p.y
  let m ← store 4 m p.y (add (constProduct re im ab) acc)
  pure (p.advance 4 0 4, m)

/-- Body of the scalar loop (`vector_multiply_add.cpp:513-529`). -/
def cConstAddScalar (re im : K) (p : Ptr) (m : Mem K) : Outcome (Ptr × Mem K) :=
  .ok (p.advance 2 0 2, storeu 2 m p.y
    (add (complexProductScalar re im m p.p1) (loadl (broadcast re) m p.y)))

/-- `vectorMultiplyConstantAddInplace< std::complex< float >, f >` (`vector_multiply_add.cpp:434-532`). There is no check
of the alignment. -/
def cVectorMultiplyConstantAddInplace (f : Feature) (re im : K) (factor accumulator n alignment : Nat) (m : Mem K) :
    Outcome (Err × Mem K) := do
  let p : Ptr := ⟨factor, 0, accumulator⟩
  let (cnt, p, m) ← loopIf f.hasAvx 4 (cConstAddBody4 re im (decide (4 ≤ alignment))) n p m
  let (cnt, p, m) ← loopIf (decide (2 ≤ alignment)) 2 (cConstAddBody2 re im) cnt p m
  let (_, _, m) ← loop 1 (cConstAddScalar re im) cnt p m
  pure (.noError, m)

/-- `reference::vectorMultiplyConstantAddInplace` (`vector_functions_impl.hpp:321-335`) for complex elements. -/
def refCConstAddLoop (re im : K) (factor accumulator : Nat) : Nat → Nat → Mem K → Mem K
  | 0, _, m => m
  | k + 1, idx, m =>
    let x := factor + 2 * idx
    let y := accumulator + 2 * idx
    refCConstAddLoop re im factor accumulator k (idx + 1)
      (setComplex m y (m y + (re * m x - im * m (x + 1))) (m (y + 1) + (re * m (x + 1) + im * m x)))

/-- `reference::vectorMultiplyConstantAddInplace` for complex elements. -/
def refCConstAdd (re im : K) (factor accumulator n alignment : Nat) (m : Mem K) : Outcome (Err × Mem K) :=
  if check 2 factor alignment = false then .ok (.alignmentError, m)
  else if check 2 accumulator alignment = false then .ok (.alignmentError, m)
  else .ok (.noError, refCConstAddLoop re im factor accumulator n 0 m)

/-! ### Ramp scaling -/

/-- Body of the vector loops of `vectorRampScaling< float >` (`vector_ramp_scaling.cpp:49-66`, `:70-87`, `:94-109`,
`:113-128`, `:146-163`, `:167-184`, `:191-206`, `:210-225`); `p1` is the input, `p2` the ramp. -/
def rampBody (f : Feature) (base gain : K) (accumulate aligned : Bool) (w : Nat) (p : Ptr) (m : Mem K) :
    Outcome (Ptr × Mem K) := do
  let rampPart ← loadIf aligned w m p.p2
  let inPart ← loadIf aligned w m p.p1
  let scale := mulAdd f rampPart (broadcast gain) (broadcast base)
  if accumulate = true then
    let outPart ← loadIf aligned w m p.y
    let m ← storeIf aligned w m p.y (mulAdd f scale inPart outPart)
    pure (p.advance w w w, m)
  else
    let m ← storeIf aligned w m p.y (mul scale inPart)
    pure (p.advance w w w, m)

/-- Body of the scalar loops (`vector_ramp_scaling.cpp:232-244`, `:248-259`). -/
def rampScalar (base gain : K) (accumulate : Bool) (p : Ptr) (m : Mem K) : Outcome (Ptr × Mem K) :=
  let scale := add (mul (loadS m p.p2) (broadcast gain)) (broadcast base)
  if accumulate = true then
    .ok (p.advance 1 1 1, storeu 1 m p.y (add (mul scale (loadS m p.p1)) (loadS m p.y)))
  else .ok (p.advance 1 1 1, storeu 1 m p.y (mul scale (loadS m p.p1)))

/-- `vectorRampScaling< float, f >` (`vector_ramp_scaling.cpp:20-263`). The alignment is checked in debug builds only. -/
def vectorRampScaling (debug : Bool) (f : Feature) (input ramp output : Nat) (base gain : K) (n : Nat) (accumulate : Bool)
    (alignment : Nat) (m : Mem K) : Outcome (Err × Mem K) :=
  if debug = true ∧ check 1 input alignment = false then .ok (.alignmentError, m)
  else if debug = true ∧ check 1 ramp alignment = false then .ok (.alignmentError, m)
  else if debug = true ∧ check 1 output alignment = false then .ok (.alignmentError, m)
  else do
    let p : Ptr := ⟨input, ramp, output⟩
    let (cnt, p, m) ← loopIf f.hasAvx 8 (rampBody f base gain accumulate (decide (8 ≤ alignment)) 8) n p m
    let (cnt, p, m) ← loop 4 (rampBody f base gain accumulate (decide (4 ≤ alignment)) 4) cnt p m
    let (_, _, m) ← loop 1 (rampScalar base gain accumulate) cnt p m
    pure (.noError, m)

/-- `reference::vectorRampScaling` (`vector_functions_impl.hpp:363-397`), the loops. -/
def refRampLoop (input ramp output : Nat) (base gain : K) (accumulate : Bool) : Nat → Nat → Mem K → Mem K
  | 0, _, m => m
  | k + 1, idx, m =>
    let scale := base + gain * m (ramp + idx)
    refRampLoop input ramp output base gain accumulate k (idx + 1)
      (Function.update m (output + idx)
        (if accumulate = true then m (output + idx) + scale * m (input + idx) else scale * m (input + idx)))

/-- `reference::vectorRampScaling`. -/
def refRamp (debug : Bool) (input ramp output : Nat) (base gain : K) (n : Nat) (accumulate : Bool) (alignment : Nat)
    (m : Mem K) : Outcome (Err × Mem K) :=
  if debug = true ∧ check 1 input alignment = false then .ok (.alignmentError, m)
  else if debug = true ∧ check 1 ramp alignment = false then .ok (.alignmentError, m)
  else if debug = true ∧ check 1 output alignment = false then .ok (.alignmentError, m)
  else .ok (.noError, refRampLoop input ramp output base gain accumulate n 0 m)

/-! ### Selection of the functions -/

/-- The functions that have a vectorised version, by element type. -/
inductive Fn where
  | multiplyFloat
  | multiplyDouble
  | multiplyComplex
  | multiplyAddFloat
  | multiplyAddDouble
  | multiplyAddComplex
  | constAddFloat
  | constAddComplex
  | rampFloat
  deriving DecidableEq

/-- The function wrappers (`function_wrapper.hpp:22-35`, `vector_functions.cpp:45-50`): `none` is the reference
function. -/
abbrev Table := Fn → Option Feature

/-- The initial function pointers (`vector_functions.cpp:45-50`). -/
def Table.init : Table := fun _ => none

/-- The properties of the processor that are queried (`intel_x86_64/cpu_features.cpp:50-86`). -/
structure Cpu where
  sse42 : Bool
  avx : Bool
  avx2 : Bool
  fma3 : Bool

/-- `initialiseLibrary` (`intel_x86_64/initialise_library.cpp:20-72`). -/
def initialiseLibrary (cpu : Cpu) (t : Table) : Table :=
  if cpu.fma3 = true ∧ cpu.avx2 = true ∧ cpu.avx = true ∧ cpu.sse42 = true then fun _ => some .fma
  else if cpu.avx = true ∧ cpu.sse42 = true then fun _ => some .avx
  else if cpu.sse42 = true then fun _ => some .sse
  else t

/-- `uninitialiseLibrary` (`intel_x86_64/initialise_library.cpp:74-97`): all functions but one are set to the reference
functions. -/
def uninitialiseLibrary (t : Table) : Table := fun fn =>
  match fn with
  | .multiplyAddDouble => t fn
  | _ => none

/-- The arguments of a call; the meaning of the fields depends on the function. -/
structure Args (K : Type) where
  p1 : Nat
  p2 : Nat
  y : Nat
  n : Nat
  alignment : Nat
  re : K
  im : K
  accumulate : Bool

/-- A call through the wrapper (`vector_functions.hpp`). -/
def call (debug : Bool) (t : Table) (fn : Fn) (a : Args K) (m : Mem K) : Outcome (Err × Mem K) :=
  match fn, t fn with
  | .multiplyFloat, some f => vectorMultiply f 8 a.p1 a.p2 a.y a.n a.alignment m
  | .multiplyFloat, none => refMultiply a.p1 a.p2 a.y a.n a.alignment m
  | .multiplyDouble, some f => vectorMultiply f 4 a.p1 a.p2 a.y a.n a.alignment m
  | .multiplyDouble, none => refMultiply a.p1 a.p2 a.y a.n a.alignment m
  | .multiplyComplex, some f => cVectorMultiply f a.p1 a.p2 a.y a.n a.alignment m
  | .multiplyComplex, none => refCMultiply a.p1 a.p2 a.y a.n a.alignment m
  | .multiplyAddFloat, some f => vectorMultiplyAddInplace f 8 a.p1 a.p2 a.y a.n a.alignment m
  | .multiplyAddFloat, none => refMultiplyAdd a.p1 a.p2 a.y a.n a.alignment m
  | .multiplyAddDouble, some f => vectorMultiplyAddInplace f 4 a.p1 a.p2 a.y a.n a.alignment m
  | .multiplyAddDouble, none => refMultiplyAdd a.p1 a.p2 a.y a.n a.alignment m
  | .multiplyAddComplex, some f => cVectorMultiplyAddInplace f a.p1 a.p2 a.y a.n a.alignment m
  | .multiplyAddComplex, none => refCMultiplyAdd a.p1 a.p2 a.y a.n a.alignment m
  | .constAddFloat, some f => vectorMultiplyConstantAddInplace f a.re a.p1 a.y a.n a.alignment m
  | .constAddFloat, none => refConstAdd a.re a.p1 a.y a.n a.alignment m
  | .constAddComplex, some f => cVectorMultiplyConstantAddInplace f a.re a.im a.p1 a.y a.n a.alignment m
  | .constAddComplex, none => refCConstAdd a.re a.im a.p1 a.y a.n a.alignment m
  | .rampFloat, some f => vectorRampScaling debug f a.p1 a.p2 a.y a.re a.im a.n a.accumulate a.alignment m
  | .rampFloat, none => refRamp debug a.p1 a.p2 a.y a.re a.im a.n a.accumulate a.alignment m

end Functions

end Visr.Simd
