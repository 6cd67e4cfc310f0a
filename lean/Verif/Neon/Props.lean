import Verif.Neon.Steps
import Verif.VectorFn.Props
import Mathlib.Algebra.Ring.Int.Defs
import Mathlib.Algebra.Field.Rat
import Mathlib.Data.List.Induction

/-!
# C86: the NEON functions compute their formulas
-/

namespace Visr.Neon
open Visr Simd

variable {K : Type} [CommRing K]

theorem check_vectors {fn : Fn} {a : Args K} (hal : a.alignment < 2 ^ 64) :
    (∀ p ∈ vectors fn a, check fn.size p a.alignment = true) ↔ Aligned fn a := by
  unfold Aligned
  constructor
  · intro h
    rcases Nat.eq_zero_or_pos a.alignment with h0 | h0
    · exact .inl h0
    · refine .inr ⟨?_, fun p hp => ?_⟩
      · rcases (check_iff _ _ _ hal).1 (h a.y (y_mem fn a)) with h | h
        · omega
        · exact h.1
      · rcases (check_iff _ _ _ hal).1 (h p hp) with h | h
        · omega
        · exact h.2
  · rintro (h | ⟨h, h'⟩) p hp
    · exact (check_iff _ _ _ hal).2 (.inl h)
    · exact (check_iff _ _ _ hal).2 (.inr ⟨h, h' p hp⟩)

/-- **Every function writes the documented values and nothing else**: for every number of elements, whatever the uninitialised
variables contain. No cell outside the vectors is needed: they need not be accessible. If the alignment promise is checked it
must hold; otherwise it does not matter. -/
theorem calls_compute (debug : Bool) (g : Garbage K) (fn : Fn) (a : Args K) (m : Memory K) (h64 : a.alignment < 2 ^ 64)
    (hacc : Accessible fn a m) (hs : Separate fn a) (ha : fn.checks debug = true → Aligned fn a) :
    call debug g fn a m = .ok (.noError, written fn a m a.n) := by
  have hal : fn.checks debug = true → ∀ p ∈ vectors fn a, check fn.size p a.alignment = true :=
    fun h => (check_vectors h64).2 (ha h)
  unfold call
  match fn with
  | ⟨.add, false, false⟩ => exact vectorAdd_ok debug g a m hacc hs (fun hd => hal (by simp [Fn.checks, hd]))
  | ⟨.add, false, true⟩ => exact cVectorAdd_ok debug a m hacc hs (fun hd => hal (by simp [Fn.checks, hd]))
  | ⟨.add, true, false⟩ => exact vectorAddInplace_ok debug g a m hacc hs (fun hd => hal (by simp [Fn.checks, hd]))
  | ⟨.add, true, true⟩ => exact cVectorAddInplace_ok debug a m hacc hs (fun hd => hal (by simp [Fn.checks, hd]))
  | ⟨.addConstant, false, false⟩ => exact vectorAddConstant_ok debug g a m hacc hs (fun hd => hal (by simp [Fn.checks, hd]))
  | ⟨.addConstant, false, true⟩ => exact cVectorAddConstant_ok debug a m hacc hs (fun hd => hal (by simp [Fn.checks, hd]))
  | ⟨.addConstant, true, false⟩ => exact vectorAddConstantInplace_ok debug g a m hacc hs (fun hd => hal (by simp [Fn.checks, hd]))
  | ⟨.addConstant, true, true⟩ => exact cVectorAddConstantInplace_ok debug a m hacc hs (fun hd => hal (by simp [Fn.checks, hd]))
  | ⟨.multiply, false, false⟩ => exact vectorMultiply_ok debug g a m hacc hs (fun hd => hal (by simp [Fn.checks, hd]))
  | ⟨.multiply, false, true⟩ => exact cVectorMultiply_ok debug g a m hacc hs (fun hd => hal (by simp [Fn.checks, hd]))
  | ⟨.multiply, true, false⟩ => exact vectorMultiplyInplace_ok debug g a m hacc hs (fun hd => hal (by simp [Fn.checks, hd]))
  | ⟨.multiply, true, true⟩ => exact cVectorMultiplyInplace_ok debug g a m hacc hs (fun hd => hal (by simp [Fn.checks, hd]))
  | ⟨.multiplyConstant, false, false⟩ => exact vectorMultiplyConstant_ok debug g a m hacc hs (fun hd => hal (by simp [Fn.checks, hd]))
  | ⟨.multiplyConstant, false, true⟩ => exact cVectorMultiplyConstant_ok debug g a m hacc hs (fun hd => hal (by simp [Fn.checks, hd]))
  | ⟨.multiplyConstant, true, false⟩ => exact vectorMultiplyConstantInplace_ok debug g a m hacc hs (fun hd => hal (by simp [Fn.checks, hd]))
  | ⟨.multiplyConstant, true, true⟩ => exact cVectorMultiplyConstantInplace_ok debug g a m hacc hs (fun hd => hal (by simp [Fn.checks, hd]))
  | ⟨.multiplyAdd, false, false⟩ => exact vectorMultiplyAdd_ok debug g a m hacc hs (fun hd => hal (by simp [Fn.checks, hd]))
  | ⟨.multiplyAdd, false, true⟩ => exact cVectorMultiplyAdd_ok debug g a m hacc hs (fun hd => hal (by simp [Fn.checks, hd]))
  | ⟨.multiplyAdd, true, false⟩ => exact vectorMultiplyAddInplace_ok debug g a m hacc hs (fun hd => hal (by simp [Fn.checks, hd]))
  | ⟨.multiplyAdd, true, true⟩ => exact cVectorMultiplyAddInplace_ok debug g a m hacc hs (fun _ => hal (by simp [Fn.checks]))
  | ⟨.multiplyConstantAdd, false, false⟩ => exact vectorMultiplyConstantAdd_ok debug g a m hacc hs (fun hd => hal (by simp [Fn.checks, hd]))
  | ⟨.multiplyConstantAdd, false, true⟩ => exact cVectorMultiplyConstantAdd_ok debug g a m hacc hs (fun hd => hal (by simp [Fn.checks, hd]))
  | ⟨.multiplyConstantAdd, true, false⟩ => exact vectorMultiplyConstantAddInplace_ok debug g a m hacc hs (fun hd => hal (by simp [Fn.checks, hd]))
  | ⟨.multiplyConstantAdd, true, true⟩ => exact cVectorMultiplyConstantAddInplace_ok debug g a m hacc hs (fun hd => hal (by simp [Fn.checks, hd]))

/-- Vectors that are not aligned as promised are rejected by the functions that check it, and the memory is left as it is. -/
theorem misaligned_reported_partial (debug : Bool) (g : Garbage K) (fn : Fn) (a : Args K) (m : Memory K)
    (h64 : a.alignment < 2 ^ 64) (hf : fn.checks debug = true) (ha : ¬ Aligned fn a) :
    call debug g fn a m = .ok (.alignmentError, m) := by
  rw [← check_vectors h64] at ha
  simp only [not_forall] at ha
  obtain ⟨p, hp, hc⟩ := ha
  have hc : check fn.size p a.alignment = false := by simpa using hc
  unfold call
  match fn with
  | ⟨.add, false, false⟩ =>
    obtain rfl : debug = true := by simpa [Fn.checks] using hf
    exact checked_rejects _ _ _ _ _ p (by revert hp; simp [vectors, Op.arity]; try tauto) hc
  | ⟨.add, false, true⟩ =>
    obtain rfl : debug = true := by simpa [Fn.checks] using hf
    exact checked_rejects _ _ _ _ _ p (by revert hp; simp [vectors, Op.arity]; try tauto) hc
  | ⟨.add, true, false⟩ =>
    obtain rfl : debug = true := by simpa [Fn.checks] using hf
    exact checked_rejects _ _ _ _ _ p (by revert hp; simp [vectors, Op.arity]; try tauto) hc
  | ⟨.add, true, true⟩ =>
    obtain rfl : debug = true := by simpa [Fn.checks] using hf
    exact checked_rejects _ _ _ _ _ p (by revert hp; simp [vectors, Op.arity]; try tauto) hc
  | ⟨.addConstant, false, false⟩ =>
    obtain rfl : debug = true := by simpa [Fn.checks] using hf
    exact checked_rejects _ _ _ _ _ p (by revert hp; simp [vectors, Op.arity]; try tauto) hc
  | ⟨.addConstant, false, true⟩ =>
    obtain rfl : debug = true := by simpa [Fn.checks] using hf
    exact checked_rejects _ _ _ _ _ p (by revert hp; simp [vectors, Op.arity]; try tauto) hc
  | ⟨.addConstant, true, false⟩ =>
    obtain rfl : debug = true := by simpa [Fn.checks] using hf
    exact checked_rejects _ _ _ _ _ p (by revert hp; simp [vectors, Op.arity]; try tauto) hc
  | ⟨.addConstant, true, true⟩ =>
    obtain rfl : debug = true := by simpa [Fn.checks] using hf
    exact checked_rejects _ _ _ _ _ p (by revert hp; simp [vectors, Op.arity]; try tauto) hc
  | ⟨.multiply, false, false⟩ =>
    obtain rfl : debug = true := by simpa [Fn.checks] using hf
    exact checked_rejects _ _ _ _ _ p (by revert hp; simp [vectors, Op.arity]; try tauto) hc
  | ⟨.multiply, false, true⟩ =>
    obtain rfl : debug = true := by simpa [Fn.checks] using hf
    exact checked_rejects _ _ _ _ _ p (by revert hp; simp [vectors, Op.arity]; try tauto) hc
  | ⟨.multiply, true, false⟩ =>
    obtain rfl : debug = true := by simpa [Fn.checks] using hf
    exact checked_rejects _ _ _ _ _ p (by revert hp; simp [vectors, Op.arity]; try tauto) hc
  | ⟨.multiply, true, true⟩ =>
    obtain rfl : debug = true := by simpa [Fn.checks] using hf
    exact checked_rejects _ _ _ _ _ p (by revert hp; simp [vectors, Op.arity]; try tauto) hc
  | ⟨.multiplyConstant, false, false⟩ =>
    obtain rfl : debug = true := by simpa [Fn.checks] using hf
    exact checked_rejects _ _ _ _ _ p (by revert hp; simp [vectors, Op.arity]; try tauto) hc
  | ⟨.multiplyConstant, false, true⟩ =>
    obtain rfl : debug = true := by simpa [Fn.checks] using hf
    exact checked_rejects _ _ _ _ _ p (by revert hp; simp [vectors, Op.arity]; try tauto) hc
  | ⟨.multiplyConstant, true, false⟩ =>
    obtain rfl : debug = true := by simpa [Fn.checks] using hf
    exact checked_rejects _ _ _ _ _ p (by revert hp; simp [vectors, Op.arity]; try tauto) hc
  | ⟨.multiplyConstant, true, true⟩ =>
    obtain rfl : debug = true := by simpa [Fn.checks] using hf
    exact checked_rejects _ _ _ _ _ p (by revert hp; simp [vectors, Op.arity]; try tauto) hc
  | ⟨.multiplyAdd, false, false⟩ =>
    obtain rfl : debug = true := by simpa [Fn.checks] using hf
    exact checked_rejects _ _ _ _ _ p (by revert hp; simp [vectors, Op.arity]; try tauto) hc
  | ⟨.multiplyAdd, false, true⟩ =>
    obtain rfl : debug = true := by simpa [Fn.checks] using hf
    exact checked_rejects _ _ _ _ _ p (by revert hp; simp [vectors, Op.arity]; try tauto) hc
  | ⟨.multiplyAdd, true, false⟩ =>
    obtain rfl : debug = true := by simpa [Fn.checks] using hf
    exact checked_rejects _ _ _ _ _ p (by revert hp; simp [vectors, Op.arity]; try tauto) hc
  | ⟨.multiplyAdd, true, true⟩ => exact checked_rejects _ _ _ _ _ p (by revert hp; simp [vectors, Op.arity]; try tauto) hc
  | ⟨.multiplyConstantAdd, false, false⟩ =>
    obtain rfl : debug = true := by simpa [Fn.checks] using hf
    exact checked_rejects _ _ _ _ _ p (by revert hp; simp [vectors, Op.arity]; try tauto) hc
  | ⟨.multiplyConstantAdd, false, true⟩ =>
    obtain rfl : debug = true := by simpa [Fn.checks] using hf
    exact checked_rejects _ _ _ _ _ p (by revert hp; simp [vectors, Op.arity]; try tauto) hc
  | ⟨.multiplyConstantAdd, true, false⟩ =>
    obtain rfl : debug = true := by simpa [Fn.checks] using hf
    exact checked_rejects _ _ _ _ _ p (by revert hp; simp [vectors, Op.arity]; try tauto) hc
  | ⟨.multiplyConstantAdd, true, true⟩ =>
    obtain rfl : debug = true := by simpa [Fn.checks] using hf
    exact checked_rejects _ _ _ _ _ p (by revert hp; simp [vectors, Op.arity]; try tauto) hc

/-! ### A case that meets the conditions -/

namespace Demo

/-- Cells 0 to 39 are accessible and contain their address. -/
def memory : Memory ℤ := fun q => if q < 40 then some q else none

/-- Seven complex numbers: factors at 0 and 14, accumulator at 26 … the result. -/
def args : Args ℤ := ⟨⟨2, 1⟩, 0, 0, 0, 26, 7, 2⟩

/-- The function. -/
def fn : Fn := ⟨.multiplyConstantAdd, true, true⟩

/-- Some content of the uninitialised variables. -/
def garbage : Garbage ℤ := ⟨(fun _ => 77, fun _ => 78), (fun _ => 79, fun _ => 80), (fun _ => 81, fun _ => 82)⟩

/-- The result as a list of cells. -/
def cells (r : Outcome (Err × Memory ℤ)) : Outcome (Err × List (Option ℤ)) :=
  match r with
  | .ok (e, m) => .ok (e, (List.range 42).map m)
  | .throw e => .throw e
  | .ub => .ub

end Demo

example : Accessible Demo.fn Demo.args Demo.memory ∧ Separate Demo.fn Demo.args ∧ Demo.fn.checks false = false := by
  refine ⟨?_, ?_, rfl⟩
  · intro p hp i hi
    simp [vectors, Demo.fn, Demo.args, Op.arity, Fn.size] at hp hi
    rcases hp with rfl | rfl <;> simp [Demo.memory] <;> omega
  · intro p hp
    simp [vectors, Demo.fn, Demo.args, Op.arity] at hp
    rcases hp with rfl | rfl <;> simp [Demo.fn, Demo.args, Fn.size]

example : (Demo.cells (call false Demo.garbage Demo.fn Demo.args Demo.memory)) =
    .ok (.noError, ((List.range 26).map fun q : Nat => some (q : ℤ)) ++
      [25, 29, 29, 37, 33, 45, 37, 53, 41, 61, 45, 69, 49, 77].map some ++ [none, none]) := by decide +kernel

example : ¬ Aligned Demo.fn { Demo.args with p1 := 2 } := by
  rintro (h | ⟨_, h⟩)
  · exact absurd h (by decide)
  · exact absurd (h 26 (by decide)) (by decide)

/-! ### Consequences -/

/-- The result does not depend on the uninitialised variables. -/
theorem garbage_irrelevant (debug : Bool) (g g' : Garbage K) (fn : Fn) (a : Args K) (m : Memory K) (h64 : a.alignment < 2 ^ 64)
    (hacc : Accessible fn a m) (hs : Separate fn a) : call debug g fn a m = call debug g' fn a m := by
  by_cases h : fn.checks debug = true → Aligned fn a
  · rw [calls_compute debug g fn a m h64 hacc hs h, calls_compute debug g' fn a m h64 hacc hs h]
  · obtain ⟨h1, h2⟩ := Classical.not_imp.1 h
    rw [misaligned_reported_partial debug g fn a m h64 h1 h2, misaligned_reported_partial debug g' fn a m h64 h1 h2]

/-- The function in place has the same effect as the other one with the result vector as its last operand. -/
theorem inplace_same (debug : Bool) (g : Garbage K) (op : Op) (cx : Bool) (a b : Args K) (m : Memory K) (h64 : a.alignment < 2 ^ 64)
    (hacc : Accessible ⟨op, true, cx⟩ a m) (hs : Separate ⟨op, true, cx⟩ a)
    (ha : Aligned ⟨op, true, cx⟩ a) (hb : b = { a with
      p1 := if op.arity = 1 then a.y else a.p1
      p2 := if op.arity = 2 then a.y else a.p2
      p3 := if op.arity = 3 then a.y else a.p3 }) :
    call debug g ⟨op, true, cx⟩ a m = call debug g ⟨op, false, cx⟩ b m := by
  have hv : ∀ p, p ∈ vectors ⟨op, false, cx⟩ b → p ∈ vectors ⟨op, true, cx⟩ a := by
    subst hb
    intro p hp
    cases op <;> simp [vectors, Op.arity] at hp ⊢ <;> tauto
  have hy : b.y = a.y := by rw [hb]
  have hn : b.n = a.n := by rw [hb]
  have hal : b.alignment = a.alignment := by rw [hb]
  rw [calls_compute debug g ⟨op, true, cx⟩ a m h64 hacc hs fun _ => ha,
    calls_compute debug g ⟨op, false, cx⟩ b m (by rw [hal]; exact h64)]
  · rw [hn]
    congr 2
    funext q
    subst hb
    cases op <;> rfl
  · intro p hp
    rw [hn]
    exact hacc p (hv p hp)
  · intro p hp
    rw [hn, hy]
    exact hs p (hv p hp)
  · intro _
    unfold Aligned
    rw [hal]
    rcases ha with h | ⟨h, h'⟩
    · exact .inl h
    · exact .inr ⟨h, fun p hp => h' p (hv p hp)⟩

/-- Release builds do not check the promise, with one exception. -/
theorem release_unchecked : ∃ (a : Args ℤ) (m m' : Memory ℤ), ¬ Aligned ⟨.multiplyAdd, false, true⟩ a ∧
    ¬ Aligned ⟨.multiplyAdd, true, true⟩ a ∧
    call false Demo.garbage ⟨.multiplyAdd, false, true⟩ a m = .ok (.noError, m') ∧
    call false Demo.garbage ⟨.multiplyAdd, true, true⟩ a m = .ok (.alignmentError, m) := by
  have hm : ∀ ip, ¬ Aligned ⟨.multiplyAdd, ip, true⟩ (⟨⟨2, 1⟩, 2, 8, 16, 24, 3, 4⟩ : Args ℤ) := by
    intro ip
    rintro (h | ⟨_, h⟩)
    · exact absurd h (by decide)
    · exact absurd (h 2 (by cases ip <;> decide)) (by cases ip <;> decide)
  refine ⟨⟨⟨2, 1⟩, 2, 8, 16, 24, 3, 4⟩, Demo.memory, _, hm false, hm true,
    calls_compute false Demo.garbage ⟨.multiplyAdd, false, true⟩ _ _ (by decide) ?_ ?_
      (fun h => absurd h (by decide)),
    misaligned_reported_partial false Demo.garbage ⟨.multiplyAdd, true, true⟩ _ _ (by decide) (by decide) (hm true)⟩
  · intro p hp i hi
    simp [vectors, Op.arity, Fn.size] at hp hi
    rcases hp with rfl | rfl | rfl | rfl <;> simp [Demo.memory] <;> omega
  · intro p hp
    simp [vectors, Op.arity] at hp
    rcases hp with rfl | rfl | rfl | rfl <;> simp [Fn.size]

/-- Whatever is initialised and uninitialised, in whatever order: the functions of this library are used exactly if the last call
was the initialisation, and then all of them. -/
theorem selected (calls : List Bool) (fn : Fn) :
    (calls.foldl (fun t c => if c then initialiseLibrary t else uninitialiseLibrary t) (fun _ => false)) fn =
      calls.getLastD false := by
  induction calls using List.reverseRecOn with
  | nil => rfl
  | append_singleton l c ih => cases c <;> simp [List.foldl_append, initialiseLibrary, uninitialiseLibrary]

/-- The documented formula of the reference functions (C83), as an operation on the elements. -/
def referenceOp {F : Type} (fn : Fn) (c : F) : VectorFn.Op F :=
  match fn.op, fn.inplace with
  | .add, false => .add
  | .add, true => .addInplace
  | .addConstant, false => .addConstant c
  | .addConstant, true => .addConstantInplace c
  | .multiply, false => .multiply
  | .multiply, true => .multiplyInplace
  | .multiplyConstant, false => .multiplyConstant c
  | .multiplyConstant, true => .multiplyConstantInplace c
  | .multiplyAdd, false => .multiplyAdd
  | .multiplyAdd, true => .multiplyAddInplace
  | .multiplyConstantAdd, false => .multiplyConstantAdd c
  | .multiplyConstantAdd, true => .multiplyConstantAddInplace c

/-- **The real functions have the same effect as the reference functions** (C83) on an array `l` that contains all vectors. -/
theorem same_as_reference {F : Type} [Field F] (debug : Bool) (g : Garbage F) (fn : Fn) (hcx : fn.complex = false) (a : Args F)
    (l : List F) (L : VectorFn.Layout) (ha : a.alignment = 0) (hb : ∀ p ∈ vectors fn a, p + a.n ≤ l.length) (hs : Separate fn a) :
    ∃ h', (referenceOp fn a.c.re).call L debug (fun o => if o = 0 then l else []) ((vectors fn a).tail.map fun p => ⟨0, p⟩) ⟨0, a.y⟩
        a.n 0 = .ok (.noError, h') ∧
      call debug g fn a (fun q => l[q]?) = .ok (.noError, fun q => (h' 0)[q]?) := by
  have hz : fn.size = 1 := by simp [Fn.size, hcx]
  have hacc : Accessible fn a (fun q => l[q]?) := by
    intro p hp i hi
    rw [hz, one_mul] at hi
    have := hb p hp
    have hlt : p + i < l.length := by omega
    simp [List.getElem?_eq_getElem hlt]
  obtain ⟨h', hr, hw⟩ := VectorFn.computed_partial (referenceOp fn a.c.re) L debug (fun o => if o = 0 then l else [])
    ((vectors fn a).tail.map fun p => ⟨0, p⟩) ⟨0, a.y⟩ a.n 0
    (by obtain ⟨op, ip, cx⟩ := fn; cases op <;> cases ip <;> rfl)
    (by
      intro p hp
      obtain ⟨q, hq, rfl⟩ := List.mem_map.1 hp
      exact hb q (List.mem_of_mem_tail hq))
    (hb _ (y_mem fn a))
    (by
      intro p hp
      obtain ⟨q, hq, rfl⟩ := List.mem_map.1 hp
      have := hs q (List.mem_of_mem_tail hq)
      rw [hz, one_mul] at this
      exact .inr this)
    (by intro p _; simp [VectorFn.aligned, Efl.checkAlignment])
  refine ⟨h', hr, ?_⟩
  rw [calls_compute debug g fn a _ (by omega) hacc hs fun _ => .inl ha]
  congr 2
  funext q
  have h0 := hw 0 q
  simp only [true_and, if_true] at h0
  rw [h0]
  unfold written
  rw [hz, one_mul]
  by_cases hq : a.y ≤ q ∧ q < a.y + a.n
  · rw [if_pos hq, if_pos hq]
    congr 1
    obtain ⟨op, ip, cx⟩ := fn
    simp only at hcx
    subst hcx
    cases op <;> cases ip <;>
      simp [value, realResult, formula, operand, Op.arity, vectors, referenceOp, VectorFn.formula, realAt, val, VectorFn.cell, add_comm]
  · rw [if_neg hq, if_neg hq]

end Visr.Neon
