import Verif.PyProfiler.Spec
import Verif.Profiler.Props
import Mathlib.Data.List.Rotate

/-!
# C101: the measurements that Python retrieves
-/

namespace Visr.PyProfiler

open Visr Visr.Profiler

variable {K : Type u} {N B : Nat}

theorem copyRows_eq (m : Fin B → Fin N → K) (n src : Nat) (h : src + n ≤ B) :
    copyRows m src n = .ok (((List.ofFn m).drop src).take n) := by
  induction n generalizing src with
  | zero => simp [copyRows]
  | succ n ih =>
    unfold copyRows
    rw [dif_pos (by omega : src < B), ih (src + 1) (by omega)]
    have hl : src < (List.ofFn m).length := by rw [List.length_ofFn]; omega
    rw [List.drop_eq_getElem_cons hl, List.take_succ_cons, List.getElem_ofFn]

theorem arrange_fits (m : Fin B → Fin N → K) {all : Nat} (now : Nat) (h : all ≤ B) :
    arrange m all now = .ok ((List.ofFn m).take all) := by
  unfold arrange
  rw [if_neg (by omega), Nat.min_eq_left h, copyRows_eq m all 0 (by omega), List.drop_zero]

theorem arrange_wrapped (m : Fin B → Fin N → K) {all : Nat} (now : Nat) (h : B < all) (hB : 0 < B) :
    arrange m all now = .ok ((List.ofFn m).rotate (now % B)) := by
  have hm := Nat.mod_lt now hB
  unfold arrange
  rw [if_pos h, if_neg (by omega), Nat.min_eq_right (by omega), copyRows_eq m _ _ (by omega), copyRows_eq m _ _ (by omega),
    List.rotate_eq_drop_append_take (by rw [List.length_ofFn]; omega), List.drop_zero]
  unfold append
  dsimp only
  rw [List.take_of_length_le (by rw [List.length_drop, List.length_ofFn]), show B - (B - now % B) = now % B by omega]

variable [Field K]

theorem back_between (between : List (Op K)) (h : OnlyReader between) (s : State K N B) :
    (final step s between).back = s.back := by
  induction between generalizing s with
  | nil => rfl
  | cons op ops ih =>
    rw [final_cons, ih (fun h' => h (List.mem_cons_of_mem _ h'))]
    cases op with
    | setTime i t => simp only [step, setTime]; split_ifs <;> rfl
    | finish => rfl
    | resetMeasurements => rfl
    | resetStatistics => rfl
    | getAndResetStatistics a b => simp only [step, getAndResetStatistics]; split_ifs <;> rfl
    | getMeasurements => exact absurd List.mem_cons_self h

theorem final_between (ops between : List (Op K)) :
    final step (Profiler.getMeasurements (after N B ops)).2.2 between = after N B (ops ++ .getMeasurements :: between) := by
  unfold after
  rw [final_append, final_cons]
  rfl

variable [CharZero K]

/-- The buffer that comes with the measurements, in terms of the iterations. -/
theorem buffer_fits (ops : List (Op K)) (h : (iterations N ops).length ≤ B) :
    (List.ofFn (Profiler.getMeasurements (after N B ops)).2.1).take (iterations N ops).length = iterations N ops := by
  apply List.ext_getElem
  · rw [List.length_take, List.length_ofFn]; omega
  · intro i h1 h2
    rw [List.getElem_take, List.getElem_ofFn]
    exact measurements_complete ops h ⟨i, by omega⟩ h2

theorem buffer_wrapped (ops : List (Op K)) (h : B < (iterations N ops).length) (hB : 0 < B) :
    (List.ofFn (Profiler.getMeasurements (after N B ops)).2.1).rotate ((iterations N ops).length % B) =
      recent B (iterations N ops) := by
  apply List.ext_getElem
  · unfold recent; rw [List.length_rotate, List.length_ofFn, List.length_drop]; omega
  · intro i h1 h2
    have hi : i < B := by rw [List.length_rotate, List.length_ofFn] at h1; exact h1
    rw [List.getElem_rotate, List.getElem_ofFn]
    have hj : (iterations N ops).length - B + i < (iterations N ops).length := by omega
    have hr : (recent B (iterations N ops))[i] = (iterations N ops)[(iterations N ops).length - B + i]'hj := by
      simp only [recent, List.getElem_drop]
    rw [hr]
    refine (measurements_exact ops).2 ((iterations N ops).length - B + i) _ (List.getElem?_eq_getElem hj)
      (show (iterations N ops).length ≤ (iterations N ops).length - B + i + B by omega) _ ?_
    dsimp only
    rw [List.length_ofFn, Nat.add_mod_mod]
    have : i + (iterations N ops).length = ((iterations N ops).length - B + i) + B := by omega
    rw [this, Nat.add_mod_right]

theorem getMeasurements_eq (ops between : List (Op K)) (hb : OnlyReader between) :
    (getMeasurements (after N B ops) between).1 =
      arrange (Profiler.getMeasurements (after N B ops)).2.1 (iterations N ops).length
        (iterations N (ops ++ .getMeasurements :: between)).length := by
  unfold getMeasurements
  dsimp only
  rw [back_between between hb, (measurements_exact ops).1, final_between]
  congr 1
  exact (agrees (B := B) (N := N) _).measCount

/-! ## The properties -/

/-- **C101.** If the iterations since the last retrieval fit into the buffer, Python gets all of them, oldest first, whatever
the audio thread does in the meantime. -/
theorem all_retrieved (ops between : List (Op K)) (hb : OnlyReader between) (h : (iterations N ops).length ≤ B) :
    (getMeasurements (after N B ops) between).1 = .ok (iterations N ops) := by
  rw [getMeasurements_eq ops between hb, arrange_fits _ _ h, buffer_fits ops h]

/-- **C101.** If the buffer is not empty, the retrieval succeeds, and Python gets the most recent iterations, each one once,
in some order. -/
theorem recent_retrieved (ops between : List (Op K)) (hb : OnlyReader between) (hB : 0 < B) :
    ∃ rows, (getMeasurements (after N B ops) between).1 = .ok rows ∧ rows.Perm (recent B (iterations N ops)) := by
  by_cases h : (iterations N ops).length ≤ B
  · refine ⟨_, all_retrieved ops between hb h, ?_⟩
    unfold recent
    rw [show (iterations N ops).length - B = 0 by omega, List.drop_zero]
  · have h : B < (iterations N ops).length := by omega
    refine ⟨_, by rw [getMeasurements_eq ops between hb, arrange_wrapped _ _ h hB], ?_⟩
    rw [← buffer_wrapped ops h hB]
    exact (List.rotate_perm _ _).trans (List.rotate_perm _ _).symm

/-- **C101.** The retrieved iterations are oldest first. (Partial: only if the number of iterations before the retrieval and
the number of those that the audio thread finished during it leave the same rest when divided by the size of the buffer;
without the latter, if the former is a multiple of the size.) -/
theorem oldest_first_partial (ops between : List (Op K)) (hb : OnlyReader between) (hB : 0 < B)
    (h : B < (iterations N ops).length →
      (iterations N (ops ++ .getMeasurements :: between)).length % B = (iterations N ops).length % B) :
    (getMeasurements (after N B ops) between).1 = .ok (recent B (iterations N ops)) := by
  by_cases hl : (iterations N ops).length ≤ B
  · rw [all_retrieved ops between hb hl]
    unfold recent
    rw [show (iterations N ops).length - B = 0 by omega, List.drop_zero]
  · have hl : B < (iterations N ops).length := by omega
    rw [getMeasurements_eq ops between hb, arrange_wrapped _ _ hl hB, h hl, buffer_wrapped ops hl hB]

omit [CharZero K] in
/-- **C101.** Retrieved iterations are not retrieved again: the next retrieval begins with the iterations that were finished
during this one. -/
theorem retrieved_once (ops between : List (Op K)) :
    (getMeasurements (after N B ops) between).2 = after N B (ops ++ .getMeasurements :: between) ∧
      iterations N (ops ++ [.getMeasurements]) = [] := by
  refine ⟨final_between ops between, ?_⟩
  unfold iterations log
  rw [List.reverse_append]
  rfl

/-- **C101 (negation, order).** If more iterations were finished than the buffer holds and the audio thread does not run
during the retrieval, the rows come in the order of the buffer: first the newest `n % B` iterations, then the older ones. -/
theorem newest_first (ops : List (Op K)) (hB : 0 < B) (h : B < (iterations N ops).length) :
    (getMeasurements (after N B ops) []).1 =
      .ok (recent ((iterations N ops).length % B) (iterations N ops) ++
        (recent B (iterations N ops)).take (B - (iterations N ops).length % B)) := by
  have hm := Nat.mod_lt (iterations N ops).length hB
  rw [getMeasurements_eq ops [] (by simp [OnlyReader]), (retrieved_once (B := B) ops []).2, arrange_wrapped _ _ h hB, List.length_nil,
    Nat.zero_mod, List.rotate_zero]
  have key := buffer_wrapped ops h hB
  have hlen : (List.ofFn (Profiler.getMeasurements (after N B ops)).2.1).length = B := List.length_ofFn
  generalize List.ofFn (Profiler.getMeasurements (after N B ops)).2.1 = b at key hlen ⊢
  generalize hk : (iterations N ops).length % B = k at *
  have hrec : recent k (iterations N ops) = (recent B (iterations N ops)).drop (B - k) := by
    unfold recent
    rw [List.drop_drop]
    congr 1
    omega
  rw [hrec, ← key, List.rotate_eq_drop_append_take (by omega)]
  have h1 : (b.drop k).length = B - k := by rw [List.length_drop, hlen]
  rw [List.drop_left' h1, List.take_left' h1, List.take_append_drop]

/-- **C101 (negation, no buffer).** If the buffer has size zero and an iteration was finished, the retrieval divides by
zero. -/
theorem empty_buffer_undefined (ops between : List (Op K)) (h : 0 < (iterations N ops).length) :
    (getMeasurements (after N 0 ops) between).1 = .ub := by
  unfold getMeasurements arrange
  dsimp only
  rw [(measurements_exact ops).1, if_pos h, if_pos rfl]

/-! ## Examples -/

/-- Iterations of one component with these times. -/
def timed (l : List ℚ) : List (Op ℚ) := l.flatMap fun t => [.setTime 0 t, .finish]

/-- The rows as numbers. -/
def numbers : Outcome (List (Fin 1 → ℚ)) → Option (List ℚ)
  | .ok l => some (l.map fun v => v 0)
  | _ => none

example : numbers (getMeasurements (after 1 3 (timed [1, 2])) (timed [7])).1 = some [1, 2] := by decide +kernel
example : numbers (getMeasurements (after 1 3 (timed [1, 2, 3, 4, 5])) []).1 = some [4, 5, 3] := by decide +kernel
example : numbers (getMeasurements (after 1 3 (timed [1, 2, 3, 4])) (timed [7])).1 = some [2, 3, 4] := by decide +kernel
example : numbers (getMeasurements (getMeasurements (after 1 3 (timed [1, 2, 3, 4])) (timed [7])).2 []).1 = some [7] := by
  decide +kernel
example : (getMeasurements (after 1 0 (timed [1])) []).1 = .ub := empty_buffer_undefined _ _ (by decide +kernel)
example : (getMeasurements (after 1 3 (timed [1, 2, 3, 4])) (timed [7])).1 = .ok (recent 3 (iterations 1 (timed [1, 2, 3, 4]))) :=
  oldest_first_partial _ _ (by simp [OnlyReader, timed]) (by omega) (by intro _; decide +kernel)

end Visr.PyProfiler
