import Verif.Profiler.Lemmas
import Mathlib.Tactic.NormNum
import Mathlib.Algebra.Order.Field.Rat
import Mathlib.Data.Rat.Cast.CharZero

/-! # C32 Profiler statistics

`after N B ops` is the profiler after any history `ops` of measurements, finished iterations,
queries and resets; `log N ops` is the complete log of that history (`Spec.lean`). -/

namespace Visr.Profiler

variable {K : Type u} [Field K] [CharZero K] {N B : Nat}

/-- After at least one iteration, `getStatistics` returns the number of iterations since the last
reset, the arithmetic mean and the sample variance (NaN for a single iteration) of the measured
times of every component. -/
theorem statistics_exact (ops : List (Op K)) (h : (log N ops).forStatistics ≠ []) :
    ∃ r, getStatistics (after N B ops) N N = .ok r ∧
      r.count = (log N ops).forStatistics.length ∧
      ∀ i, let times := (log N ops).forStatistics.map (fun v => v i)
        r.mean i = some (average times) ∧
        r.variance i = if times.length = 1 then none else some (sampleVariance times) := by
  have ha := agrees (B := B) (N := N) ops
  have hpos : (log N ops).forStatistics.length ≠ 0 := fun e => h (List.length_eq_zero_iff.mp e)
  unfold getStatistics
  simp only [ne_eq, not_true_eq_false, if_false]
  refine ⟨_, rfl, ha.statCount, ?_⟩
  intro i
  have htl : ((log N ops).forStatistics.map (fun v => v i)).length
      = (log N ops).forStatistics.length := List.length_map ..
  generalize htm : (log N ops).forStatistics.map (fun v => v i) = times at htl
  have hmean := ha.mean i
  have hm2 := ha.m2 i
  rw [htm] at hmean hm2
  refine ⟨congrArg some hmean, ?_⟩
  show calculateVariance _ i = _
  unfold calculateVariance
  rw [ha.statCount]
  by_cases h1 : times.length = 1
  · rw [if_pos (by omega), if_pos h1]
  · rw [if_neg (by omega), if_neg h1]
    simp only [Option.some.injEq]
    rw [hm2, Nat.cast_sub (by omega), Nat.cast_one, ← htl]
    unfold sampleVariance
    rw [div_mul_eq_mul_div, one_mul]

omit [CharZero K] in
/-- `getMean` and `getVariance` agree with `getStatistics`, and `getAndResetStatistics` returns
the same values and starts afresh, without touching the raw measurements. -/
theorem other_queries_agree (s : State K N B) (a b : Nat) (r : Statistics K N)
    (h : getStatistics s a b = .ok r) :
    getMean s a = .ok r.mean ∧ getVariance s b = .ok r.variance ∧ statisticsSamples s = r.count ∧
      ∃ s', getAndResetStatistics s a b = .ok (r, s') ∧ statisticsSamples s' = 0 ∧
        s'.front = s.front ∧ measurementSamples s' = measurementSamples s := by
  unfold getStatistics at h
  by_cases ha : a = N
  · by_cases hb : b = N
    · subst ha
      subst hb
      simp only [ne_eq, not_true_eq_false, if_false, Outcome.ok.injEq] at h
      subst h
      refine ⟨by simp [getMean], by simp [getVariance], rfl, ?_⟩
      unfold getAndResetStatistics
      simp only [ne_eq, not_true_eq_false, if_false]
      exact ⟨_, rfl, rfl, rfl, rfl⟩
    · simp [ha, hb] at h
  · simp [ha] at h

omit [CharZero K] in
/-- Vectors of a wrong size are rejected with `invalid_argument`. -/
theorem wrong_size (s : State K N B) (a b : Nat) (h : a ≠ N ∨ b ≠ N) :
    getStatistics s a b = .throw .invalidArgument ∧
    getAndResetStatistics s a b = .throw .invalidArgument ∧
    (a ≠ N → getMean s a = .throw .invalidArgument) ∧
    (b ≠ N → getVariance s b = .throw .invalidArgument) := by
  unfold getStatistics getAndResetStatistics getMean getVariance
  by_cases ha : a = N
  · have hb : b ≠ N := h.resolve_left (fun h => h ha)
    simp [ha, hb]
  · simp [ha]

/-- `getMeasurements` returns the number of iterations since the measurements were last reset or
retrieved, and a buffer that contains the times of the last `B` of them: iteration `j` is in row
`j % B`. -/
theorem measurements_exact (ops : List (Op K)) :
    let r := getMeasurements (after N B ops)
    r.1 = (log N ops).forMeasurements.length ∧
    ∀ (j : Nat) (v : Fin N → K), (log N ops).forMeasurements[j]? = some v →
      (log N ops).forMeasurements.length ≤ j + B →
      ∀ row : Fin B, row.val = j % B → r.2.1 row = v := by
  have ha := agrees (B := B) (N := N) ops
  refine ⟨ha.measCount, ?_⟩
  intro j v hv hl row hrow
  exact ha.rows row j v hv hrow.symm hl

/-- In particular, if the iterations fit into the buffer, it contains all of them in order. -/
theorem measurements_complete (ops : List (Op K))
    (h : (log N ops).forMeasurements.length ≤ B) (row : Fin B)
    (hr : row.val < (log N ops).forMeasurements.length) :
    (getMeasurements (after N B ops)).2.1 row = (log N ops).forMeasurements[row.val] :=
  (measurements_exact ops).2 row.val _ (List.getElem?_eq_getElem hr) (by omega) row
    (Nat.mod_eq_of_lt row.isLt).symm

/-- The documentation of `getMean` promises NaN if no iterations have been measured
(runtime_profiler.hpp:88-90).  The code returns zeros instead, because the NaN values are
overwritten. -/
theorem mean_without_iterations (ops : List (Op K)) (h : (log N ops).forStatistics = []) :
    getMean (after N B ops) N = .ok (fun _ => some 0) := by
  have ha := agrees (B := B) (N := N) ops
  unfold getMean
  simp only [ne_eq, not_true_eq_false, if_false, Outcome.ok.injEq]
  funext i
  rw [ha.mean i, h]
  simp [average]

/-- The variance is NaN if there are fewer than two iterations; the documentation promises a
`logic_error` (runtime_profiler.hpp:99-102). -/
theorem variance_without_iterations (ops : List (Op K))
    (h : (log N ops).forStatistics.length < 2) :
    getVariance (after N B ops) N = .ok (fun _ => none) := by
  have ha := agrees (B := B) (N := N) ops
  unfold getVariance calculateVariance
  rw [ha.statCount, if_pos h]
  simp

/-- The number of iterations reported with the measurements is not limited to the size of the
buffer: a caller that reads that many rows runs past its end. -/
theorem measurement_count_exceeds_buffer (N B : Nat) :
    ∃ ops : List (Op ℚ), (getMeasurements (after N B ops)).1 = B + 1 := by
  refine ⟨List.replicate (B + 1) .finish, ?_⟩
  rw [(measurements_exact _).1]
  unfold log
  rw [List.reverse_replicate]
  generalize B + 1 = n
  induction n with
  | zero => rfl
  | succ n ih => simp [List.replicate_succ, logRev, ih]

/-- Two components, three iterations after a reset. -/
example :
    let ops : List (Op ℚ) := [.setTime 0 9, .finish, .resetStatistics,
      .setTime 0 1, .setTime 1 10, .finish, .setTime 0 2, .setTime 1 20, .finish,
      .setTime 0 6, .setTime 1 10, .setTime 2 5, .finish]
    (log 2 ops).forStatistics.map (fun v => (v 0, v 1)) = [(1, 10), (2, 20), (6, 10)] ∧
    (match getStatistics (after 2 2 ops) 2 2 with
      | .ok r => [r.mean 0, r.variance 0, some (r.count : ℚ)]
      | _ => []) = [some 3, some 7, some 3] ∧
    (getMeasurements (after 2 2 ops)).1 = 4 ∧
    (getMeasurements (after 2 2 ops)).2.1 0 0 = 2 ∧ (getMeasurements (after 2 2 ops)).2.1 1 1 = 10 := by
  decide +kernel

end Visr.Profiler
