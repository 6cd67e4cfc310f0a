import Verif.Simd.Calls
import Mathlib.Algebra.Ring.Int.Defs

/-!
# C72: the vectorised functions compute the same as the reference functions
-/

namespace Visr.Simd
open Visr

variable {K : Type} [CommRing K]

/-- Every function, in every version that can be selected, writes the documented values to the result vector and nothing
else. -/
theorem calls_compute_partial (debug : Bool) (t : Table) (fn : Fn) (a : Args K) (m : Mem K) (hal : a.alignment < 2 ^ 64)
    (hs : Separate fn a) (ha : Aligned fn a) (hc : ConstantOk fn (t fn) a) :
    call debug t fn a m = .ok (.noError, written fn a m a.n) := by
  obtain ⟨c1, c2, c3⟩ := aligned_check hal ha
  unfold call
  cases fn <;> cases ht : t _ <;> simp only
  case multiplyFloat.none =>
    unfold refMultiply
    rw [if_neg (by rw [show check 1 a.p1 a.alignment = true from c1]; simp),
      if_neg (by rw [show check 1 a.p2 a.alignment = true from c2 rfl]; simp),
      if_neg (by rw [show check 1 a.y a.alignment = true from c3]; simp)]
    have := refMultiplyLoop_ok .multiplyFloat (.inl rfl) a m hs a.n 0 (Nat.zero_add _)
    rw [written_zero] at this
    rw [this]
  case multiplyFloat.some f => exact vectorMultiply_ok .multiplyFloat f 3 (.inl ⟨rfl, rfl⟩) a m hal hs ha
  case multiplyDouble.none =>
    unfold refMultiply
    rw [if_neg (by rw [show check 1 a.p1 a.alignment = true from c1]; simp),
      if_neg (by rw [show check 1 a.p2 a.alignment = true from c2 rfl]; simp),
      if_neg (by rw [show check 1 a.y a.alignment = true from c3]; simp)]
    have := refMultiplyLoop_ok .multiplyDouble (.inr rfl) a m hs a.n 0 (Nat.zero_add _)
    rw [written_zero] at this
    rw [this]
  case multiplyDouble.some f => exact vectorMultiply_ok .multiplyDouble f 2 (.inr ⟨rfl, rfl⟩) a m hal hs ha
  case multiplyComplex.none =>
    unfold refCMultiply
    rw [if_neg (by rw [show check 2 a.p1 a.alignment = true from c1]; simp),
      if_neg (by rw [show check 2 a.p2 a.alignment = true from c2 rfl]; simp),
      if_neg (by rw [show check 2 a.y a.alignment = true from c3]; simp)]
    have := refCMultiplyLoop_ok a m hs a.n 0 (Nat.zero_add _)
    rw [written_zero] at this
    rw [this]
  case multiplyComplex.some f => exact cVectorMultiply_ok f a m hal hs ha
  case multiplyAddFloat.none =>
    unfold refMultiplyAdd
    rw [if_neg (by rw [show check 1 a.p1 a.alignment = true from c1]; simp),
      if_neg (by rw [show check 1 a.p2 a.alignment = true from c2 rfl]; simp),
      if_neg (by rw [show check 1 a.y a.alignment = true from c3]; simp)]
    have := refMultiplyAddLoop_ok .multiplyAddFloat (.inl rfl) a m hs a.n 0 (Nat.zero_add _)
    rw [written_zero] at this
    rw [this]
  case multiplyAddFloat.some f => exact vectorMultiplyAdd_ok .multiplyAddFloat f 2 (.inl ⟨rfl, rfl⟩) a m hal hs ha
  case multiplyAddDouble.none =>
    unfold refMultiplyAdd
    rw [if_neg (by rw [show check 1 a.p1 a.alignment = true from c1]; simp),
      if_neg (by rw [show check 1 a.p2 a.alignment = true from c2 rfl]; simp),
      if_neg (by rw [show check 1 a.y a.alignment = true from c3]; simp)]
    have := refMultiplyAddLoop_ok .multiplyAddDouble (.inr rfl) a m hs a.n 0 (Nat.zero_add _)
    rw [written_zero] at this
    rw [this]
  case multiplyAddDouble.some f => exact vectorMultiplyAdd_ok .multiplyAddDouble f 1 (.inr ⟨rfl, rfl⟩) a m hal hs ha
  case multiplyAddComplex.none =>
    unfold refCMultiplyAdd
    rw [if_neg (by rw [show check 2 a.p1 a.alignment = true from c1]; simp),
      if_neg (by rw [show check 2 a.p2 a.alignment = true from c2 rfl]; simp),
      if_neg (by rw [show check 2 a.y a.alignment = true from c3]; simp)]
    have := refCMultiplyAddLoop_ok a m hs a.n 0 (Nat.zero_add _)
    rw [written_zero] at this
    rw [this]
  case multiplyAddComplex.some f => exact cVectorMultiplyAdd_ok f a m hal hs ha
  case constAddFloat.none =>
    unfold refConstAdd
    rw [if_neg (by rw [show check 1 a.p1 a.alignment = true from c1]; simp),
      if_neg (by rw [show check 1 a.y a.alignment = true from c3]; simp)]
    have := refConstAddLoop_ok a m hs a.n 0 (Nat.zero_add _)
    rw [written_zero] at this
    rw [this]
  case constAddFloat.some f =>
    have h := hc rfl
    rw [ht] at h
    exact vectorConstAdd_ok f a m hs ha (by cases f <;> simpa [Feature.hasAvx] using h)
  case constAddComplex.none =>
    unfold refCConstAdd
    rw [if_neg (by rw [show check 2 a.p1 a.alignment = true from c1]; simp),
      if_neg (by rw [show check 2 a.y a.alignment = true from c3]; simp)]
    have := refCConstAddLoop_ok a m hs a.n 0 (Nat.zero_add _)
    rw [written_zero] at this
    rw [this]
  case constAddComplex.some f => exact cVectorConstAdd_ok f a m hs ha
  case rampFloat.none =>
    unfold refRamp
    rw [if_neg (by rw [show check 1 a.p1 a.alignment = true from c1]; simp),
      if_neg (by rw [show check 1 a.p2 a.alignment = true from c2 rfl]; simp),
      if_neg (by rw [show check 1 a.y a.alignment = true from c3]; simp)]
    have := refRampLoop_ok a m hs a.n 0 (Nat.zero_add _)
    rw [written_zero] at this
    rw [this]
  case rampFloat.some f => exact vectorRamp_ok debug f a m hal hs ha

/-- Arguments that meet the conditions for every version: 21 complex numbers, in place, aligned to two numbers. -/
example : Separate .multiplyAddComplex (⟨8, 64, 8, 21, 2, 1, 0, true⟩ : Args ℤ) ∧
    Aligned .multiplyAddComplex (⟨8, 64, 8, 21, 2, 1, 0, true⟩ : Args ℤ) :=
  ⟨⟨.inl rfl, fun _ => .inr (.inr (by decide))⟩, .inr ⟨⟨1, rfl⟩, by decide, fun _ => by decide, by decide⟩⟩

/-- **The result does not depend on the processor**: whatever sequence of initialisations and uninitialisations of the
library happened, on whatever processors, a call has the same effect as with the reference functions. -/
theorem processor_independent_partial (debug : Bool) (calls : List (Option Cpu)) (fn : Fn) (a : Args K) (m : Mem K)
    (hal : a.alignment < 2 ^ 64) (hs : Separate fn a) (ha : Aligned fn a)
    (hc : fn = .constAddFloat → a.y % 4 = 0) :
    call debug (tableAfter calls) fn a m = call debug Table.init fn a m := by
  rw [calls_compute_partial debug _ fn a m hal hs ha, calls_compute_partial debug _ fn a m hal hs ha]
  · intro _; trivial
  · intro h
    have := hc h
    split
    · trivial
    · exact .inl this
    · exact .inl this

/-- An uninitialised library uses the reference functions; so does one initialised on a processor without SSE 4.2. -/
theorem old_processor (cpu : Cpu) (h : cpu.sse42 = false) : tableAfter [some cpu] = Table.init := by
  simp only [tableAfter, List.foldl, initialiseLibrary, h, Bool.false_eq_true, and_false, if_false]

/-- A version that needs an instruction is selected only on a processor that has it. -/
theorem selected_supported (cpu : Cpu) (fn : Fn) (f : Feature) (h : tableAfter [some cpu] fn = some f) :
    (f.hasAvx = true → cpu.avx = true) ∧ (f.hasAvx2 = true → cpu.avx2 = true ∧ cpu.fma3 = true) ∧ cpu.sse42 = true := by
  simp only [tableAfter, List.foldl, initialiseLibrary] at h
  split_ifs at h with h1 h2 h3
  · simp only [Option.some.injEq] at h; subst h; simp [h1.1, h1.2.1, h1.2.2.1, h1.2.2.2]
  · simp only [Option.some.injEq] at h; subst h; simp [Feature.hasAvx2, h2.1, h2.2]
  · simp only [Option.some.injEq] at h; subst h; simp [Feature.hasAvx, Feature.hasAvx2, h3]
  · simp [Table.init] at h

/-- On a processor with SSE 4.2 every function is replaced by a vectorised one. -/
theorem initialised_vectorised (cpu : Cpu) (h : cpu.sse42 = true) (fn : Fn) : tableAfter [some cpu] fn ≠ none := by
  simp only [tableAfter, List.foldl, initialiseLibrary]
  split_ifs <;> simp

/-- Vectors that are not aligned as promised are rejected by the checking functions, in every version, and the memory is
left as it is. -/
theorem misaligned_rejected (debug : Bool) (t : Table) (fn : Fn) (a : Args K) (m : Mem K) (hal : a.alignment < 2 ^ 64)
    (hf : fn.checks debug = true) (ha : ¬ Aligned fn a) : call debug t fn a m = .ok (.alignmentError, m) := by
  have hc := check_misaligned hal ha
  unfold call
  cases fn <;> cases t _ <;> simp only [Fn.checks, Bool.false_eq_true] at hf ⊢ <;>
    simp only [Fn.size] at hc
  all_goals
    first
    | unfold vectorMultiply | unfold refMultiply | unfold cVectorMultiply | unfold refCMultiply
    | unfold vectorMultiplyAddInplace | unfold refMultiplyAdd | unfold cVectorMultiplyAddInplace | unfold refCMultiplyAdd
    | unfold vectorRampScaling | unfold refRamp
  all_goals rcases hc with h | h | h <;> simp [h, hf]

/-- Vectors that are not aligned as promised: an address of 9 cells, a promise of four numbers. -/
example : ¬ Aligned .multiplyFloat (⟨9, 64, 8, 21, 4, 1, 0, true⟩ : Args ℤ) := by
  rintro (h | ⟨_, h, _⟩)
  · exact absurd h (by decide)
  · exact absurd h (by decide)

/-- **False of the code**: for every vectorised version of the real multiplication with a constant, a call that promises no
alignment (`alignment = 0`) with four to seven elements and an accumulator that is not aligned to four elements faults; the
reference function computes the result. -/
theorem constant_faults (debug : Bool) (t : Table) (f : Feature) (a : Args K) (m : Mem K) (ht : t .constAddFloat = some f)
    (hn : 4 ≤ a.n ∧ a.n < 8) (hy : a.y % 4 ≠ 0) (hal : a.alignment = 0) (hs : Separate .constAddFloat a) :
    call debug t .constAddFloat a m = .ub ∧
      call debug Table.init .constAddFloat a m = .ok (.noError, written .constAddFloat a m a.n) := by
  constructor
  · unfold call
    rw [ht]
    simp only
    unfold vectorMultiplyConstantAddInplace
    simp only
    have h1 : ∀ b : Bool, loopIf b 8 (constAddBody8 f a.re (decide (8 ≤ a.alignment))) a.n ⟨a.p1, 0, a.y⟩ m =
        .ok (a.n, ⟨a.p1, 0, a.y⟩, m) := by
      intro b
      unfold loopIf
      split_ifs
      · rw [loop, dif_neg (by omega)]
      · rfl
    rw [h1, Outcome.ok_bind]
    simp only
    rw [loop, dif_pos ⟨by omega, hn.1⟩]
    simp only [constAddBody4, store]
    rw [if_neg hy]
    rfl
  · exact calls_compute_partial debug _ _ a m (by rw [hal]; decide) hs (.inl hal) (fun _ => trivial)

/-- **False of the code**: the functions that multiply with a constant do not check the alignment. Where the reference
function reports the error, the vectorised ones fault. -/
theorem constant_unchecked (debug : Bool) (t : Table) (f : Feature) (hf : f.hasAvx = true) (a : Args K) (m : Mem K)
    (ht : t .constAddComplex = some f) (hn : 4 ≤ a.n) (hal : a.alignment = 4) (hp : a.p1 % 8 ≠ 0) :
    call debug t .constAddComplex a m = .ub ∧
      call debug Table.init .constAddComplex a m = .ok (.alignmentError, m) := by
  constructor
  · unfold call
    rw [ht]
    simp only
    unfold cVectorMultiplyConstantAddInplace
    simp only
    unfold loopIf
    rw [if_pos hf, loop, dif_pos ⟨by omega, hn⟩]
    simp only [cConstAddBody4, loadIf, load, hal]
    rw [if_pos (by decide), if_neg hp]
    rfl
  · unfold call Table.init
    simp only
    unfold refCConstAdd
    have : check 2 a.p1 a.alignment = false := by
      by_contra hc
      rw [Bool.not_eq_false] at hc
      have := check_dvd (s := 2) (by rw [hal]; decide) hc 2 (by rw [hal]; decide)
      exact hp (Nat.mod_eq_zero_of_dvd this)
    rw [if_pos this]

/-- Both situations exist: arguments of both theorems. -/
example : Separate .constAddFloat (⟨0, 0, 17, 5, 0, 2, 0, true⟩ : Args ℤ) := ⟨.inr (.inl (by decide)), fun h => by cases h⟩

/-- **False of the code**: `uninitialiseLibrary` does not restore all functions. -/
theorem uninitialise_incomplete (cpu : Cpu) (h : cpu.sse42 = true) :
    tableAfter [some cpu, none] .multiplyAddDouble ≠ none ∧
      ∀ fn, fn ≠ .multiplyAddDouble → tableAfter [some cpu, none] fn = none := by
  refine ⟨initialised_vectorised cpu h .multiplyAddDouble, ?_⟩
  intro fn hfn
  cases fn <;> first | rfl | exact absurd rfl hfn

/-- The condition that the vectors do not overlap partially is needed: with an accumulator one element behind the factor,
the reference function computes each element from the previous result, the vectorised ones do not. -/
theorem overlap_differs : ∃ (a : Args ℤ) (m : Mem ℤ), Aligned .multiplyAddFloat a ∧
    call false Table.init .multiplyAddFloat a m ≠ call false (fun _ => some .sse) .multiplyAddFloat a m := by
  refine ⟨⟨0, 100, 1, 4, 0, 0, 0, false⟩, fun _ => 1, .inl rfl, ?_⟩
  intro h
  have h2 : (call false Table.init .multiplyAddFloat (⟨0, 100, 1, 4, 0, 0, 0, false⟩ : Args ℤ) (fun _ => 1)).map
      (fun r => r.2 2) = (call false (fun _ => some .sse) .multiplyAddFloat (⟨0, 100, 1, 4, 0, 0, 0, false⟩ : Args ℤ)
      (fun _ => 1)).map (fun r => r.2 2) := by rw [h]
  have e1 : (call false Table.init .multiplyAddFloat (⟨0, 100, 1, 4, 0, 0, 0, false⟩ : Args ℤ) (fun _ => 1)).map
      (fun r => r.2 2) = .ok 3 := rfl
  have e2 : (call false (fun _ => some .sse) .multiplyAddFloat (⟨0, 100, 1, 4, 0, 0, 0, false⟩ : Args ℤ)
      (fun _ => 1)).map (fun r => r.2 2) = .ok 2 := by
    simp only [call]
    unfold vectorMultiplyAddInplace
    rw [if_neg (by decide), if_neg (by decide), if_neg (by decide)]
    simp only [loopIf, Feature.hasAvx, Bool.false_eq_true, if_false, Outcome.ok_bind]
    rw [loop, dif_pos (by decide)]
    simp only [multiplyAddBody, loadIf, storeIf, Bool.false_eq_true, if_false, Outcome.ok_bind, Outcome.pure_eq]
    rw [loop, dif_neg (by decide), Outcome.ok_bind]
    simp only
    rw [loop, dif_neg (by decide), Outcome.ok_bind]
    rfl
  rw [e1, e2] at h2
  exact absurd h2 (by decide)

end Visr.Simd
