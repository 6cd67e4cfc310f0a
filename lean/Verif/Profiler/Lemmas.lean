import Verif.Profiler.Spec
import Mathlib.Tactic.Ring
import Mathlib.Tactic.FieldSimp
import Mathlib.Tactic.Linarith
import Mathlib.Tactic.LinearCombination
import Mathlib.Algebra.BigOperators.Group.List.Basic
import Mathlib.Algebra.CharZero.Defs
import Mathlib.Data.Nat.Cast.Basic
import Mathlib.Algebra.Field.Basic

/-! # Lemmas on the profiler -/

namespace Visr.Profiler

variable {K : Type u} [Field K]

/-- Sum of squares. -/
def sq (l : List K) : K := (l.map (fun x => x ^ 2)).sum

theorem sum_sq_dev (l : List K) (c : K) :
    (l.map (fun x => (x - c) ^ 2)).sum = sq l - 2 * c * l.sum + (l.length : K) * c ^ 2 := by
  induction l with
  | nil => simp [sq]
  | cons x l ih =>
    simp only [List.map_cons, List.sum_cons, List.length_cons, Nat.cast_add, Nat.cast_one, sq] at ih ⊢
    rw [ih]
    ring

theorem sq_append (l : List K) (x : K) : sq (l ++ [x]) = sq l + x ^ 2 := by
  simp [sq]

variable [CharZero K]

theorem dev_eq (l : List K) (h : l ≠ []) :
    (l.map (fun x => (x - average l) ^ 2)).sum = sq l - (l.length : K) * average l ^ 2 := by
  have hn : (l.length : K) ≠ 0 := by
    rw [Nat.cast_ne_zero]
    exact fun e => h (List.length_eq_zero_iff.mp e)
  have hs : l.sum = (l.length : K) * average l := by
    unfold average; field_simp
  rw [sum_sq_dev, hs]
  ring

theorem mean_append (l : List K) (x : K) :
    average (l ++ [x]) = average l + 1 / ((l.length + 1 : Nat) : K) * (x - average l) := by
  have hn1 : ((l.length : K) + 1) ≠ 0 := by
    exact_mod_cast Nat.succ_ne_zero l.length
  by_cases h : l = []
  · subst h; simp [average]
  · have hn : (l.length : K) ≠ 0 := by
      rw [Nat.cast_ne_zero]
      exact fun e => h (List.length_eq_zero_iff.mp e)
    unfold average
    simp only [List.sum_append, List.sum_cons, List.sum_nil, List.length_append, List.length_cons,
      List.length_nil, Nat.cast_add, Nat.cast_one, zero_add, add_zero]
    field_simp
    ring

theorem dev_append (l : List K) (x : K) (h : l ≠ []) :
    ((l ++ [x]).map (fun y => (y - average (l ++ [x])) ^ 2)).sum =
      (l.map (fun y => (y - average l) ^ 2)).sum + (x - average l) * (x - average (l ++ [x])) := by
  have hn1 : ((l.length : K) + 1) ≠ 0 := by
    exact_mod_cast Nat.succ_ne_zero l.length
  rw [dev_eq _ (by simp), dev_eq l h, sq_append, mean_append]
  simp only [List.length_append, List.length_cons, List.length_nil, Nat.cast_add, Nat.cast_one,
    zero_add]
  field_simp
  ring

/-- The state agrees with a log. -/
structure Agrees {N B : Nat} (s : State K N B) (l : Log K N) : Prop where
  now : s.current = l.now
  statCount : s.statisticsCount = l.forStatistics.length
  mean : ∀ i, s.mean i = average (l.forStatistics.map (fun v => v i))
  m2 : ∀ i, s.m2 i = ((l.forStatistics.map (fun v => v i)).map
    (fun x => (x - average (l.forStatistics.map (fun v => v i))) ^ 2)).sum
  measCount : s.measurementCount = l.forMeasurements.length
  rows : ∀ (r : Fin B) (j : Nat) (v : Fin N → K), l.forMeasurements[j]? = some v → j % B = r.val →
    l.forMeasurements.length ≤ j + B → s.front r = v

omit [CharZero K] in
theorem agrees_init {N B : Nat} (op : List (Op K)) (h : op = []) :
    Agrees (init : State K N B) (logRev N op) := by
  subst h
  refine ⟨rfl, rfl, ?_, ?_, rfl, ?_⟩
  · intro i; simp [init, logRev, average]
  · intro i; simp [init, logRev]
  · intro r j v h; simp [logRev] at h

theorem agrees_step {N B : Nat} {s : State K N B} {ops : List (Op K)} (h : Agrees s (logRev N ops))
    (op : Op K) : Agrees (step s op).1 (logRev N (op :: ops)) := by
  cases op with
  | setTime idx t =>
    have hnow : (step s (.setTime idx t)).1 =
        { s with current := fun i => if i.val = idx then t else s.current i } := by
      unfold step setTime
      by_cases hi : idx < N
      · simp only [hi, dif_pos]
        congr 1
        funext i
        simp only [Function.update_apply]
        by_cases e : i.val = idx
        · rw [if_pos e, if_pos (Fin.ext e)]
        · rw [if_neg e, if_neg (fun h => e (by rw [h]))]
      · simp only [hi, dif_neg, not_false_eq_true]
        have : (fun i : Fin N => if i.val = idx then t else s.current i) = s.current := by
          funext i
          rw [if_neg]
          have := i.isLt
          omega
        rw [this]
    rw [hnow]
    refine ⟨?_, h.statCount, h.mean, h.m2, h.measCount, h.rows⟩
    funext i
    simp only [logRev, h.now]
  | finish =>
    refine ⟨h.now, ?_, ?_, ?_, ?_, ?_⟩
    · simp [step, finishIteration, logRev, h.statCount]
    · intro i
      show (updateStatistics s).1 i = average (((logRev N ops).forStatistics ++ [(logRev N ops).now]).map (fun v => v i))
      rw [List.map_append, List.map_singleton, mean_append]
      unfold updateStatistics
      by_cases h0 : s.statisticsCount = 0
      · have : (logRev N ops).forStatistics = [] := by
          rw [h.statCount] at h0; exact List.length_eq_zero_iff.mp h0
        rw [if_pos h0, this, h.now]
        simp [average]
      · rw [if_neg h0]
        simp only [h.mean, h.now, h.statCount, List.length_map]
    · intro i
      show (updateStatistics s).2 i = (((((logRev N ops).forStatistics ++ [(logRev N ops).now])).map (fun v => v i)).map _).sum
      unfold updateStatistics
      by_cases h0 : s.statisticsCount = 0
      · have : (logRev N ops).forStatistics = [] := by
          rw [h.statCount] at h0; exact List.length_eq_zero_iff.mp h0
        rw [if_pos h0]
        show s.m2 i = _
        rw [h.m2]
        simp [logRev, this, average]
      · rw [if_neg h0]
        have hne : (logRev N ops).forStatistics ≠ [] := by
          intro e; rw [h.statCount, e] at h0; exact h0 rfl
        show s.m2 i + (s.current i - s.mean i) *
          (s.current i - (s.mean i + 1 / ((s.statisticsCount + 1 : Nat) : K) * (s.current i - s.mean i)))
          = ((((logRev N ops).forStatistics ++ [(logRev N ops).now]).map (fun v => v i)).map
            (fun x => (x - average (((logRev N ops).forStatistics ++ [(logRev N ops).now]).map
              (fun v => v i))) ^ 2)).sum
        rw [List.map_append, List.map_singleton,
          dev_append _ _ (by simpa using hne), mean_append, h.m2, h.mean, h.now, h.statCount,
          List.length_map]
    · simp [step, finishIteration, logRev, h.measCount]
    · intro r j v hv hj hl
      simp only [logRev] at hv hl
      simp only [List.length_append, List.length_cons, List.length_nil, Nat.zero_add] at hl
      have hB : 0 < B := Nat.lt_of_le_of_lt (Nat.zero_le _) r.isLt
      show (finishIteration s).front r = v
      simp only [finishIteration, hB, dif_pos, Function.update_apply]
      by_cases hjl : j = (logRev N ops).forMeasurements.length
      · subst hjl
        rw [List.getElem?_append_right (Nat.le_refl _)] at hv
        simp at hv
        have hm : s.measurementCount % B = r.val := by rw [h.measCount]; exact hj
        rw [if_pos (Fin.ext hm.symm), h.now, hv]
      · have hjlt : j < (logRev N ops).forMeasurements.length := by
          have := (List.getElem?_eq_some_iff.mp hv).1
          simp at this
          omega
        rw [List.getElem?_append_left hjlt] at hv
        rw [if_neg, h.rows r j v hv hj (by omega)]
        intro e
        have e1 : r.val = (logRev N ops).forMeasurements.length % B := by
          rw [← h.measCount]; exact congrArg Fin.val e
        rw [← hj] at e1
        have h2 := Nat.sub_mod_eq_zero_of_mod_eq e1.symm
        have h3 := Nat.dvd_of_mod_eq_zero h2
        have h4 := Nat.le_of_dvd (by omega) h3
        omega
  | resetMeasurements =>
    exact ⟨h.now, h.statCount, h.mean, h.m2, rfl, by intro r j v hv; simp [logRev] at hv⟩
  | resetStatistics =>
    refine ⟨h.now, rfl, ?_, ?_, h.measCount, h.rows⟩
    · intro i; simp [step, resetStatistics, logRev, average]
    · intro i; simp [step, resetStatistics, logRev]
  | getAndResetStatistics a b =>
    by_cases hab : a = N ∧ b = N
    · obtain ⟨rfl, rfl⟩ := hab
      have : (step s (.getAndResetStatistics b b)).1 = resetStatistics s := by
        simp [step, getAndResetStatistics, resetStatistics]
      rw [this]
      simp only [logRev, and_self, if_true]
      refine ⟨h.now, rfl, ?_, ?_, h.measCount, h.rows⟩
      · intro i; simp [resetStatistics, average]
      · intro i; simp [resetStatistics]
    · have : (step s (.getAndResetStatistics a b)).1 = s := by
        unfold step getAndResetStatistics
        by_cases ha : a = N
        · have hb : b ≠ N := fun hb => hab ⟨ha, hb⟩
          simp [ha, hb]
        · simp [ha]
      rw [this]
      simp only [logRev, if_neg hab]
      exact h
  | getMeasurements =>
    exact ⟨h.now, h.statCount, h.mean, h.m2, rfl, by intro r j v hv; simp [logRev] at hv⟩

theorem agrees {N B : Nat} (ops : List (Op K)) : Agrees (after N B ops) (log N ops) := by
  have key : ∀ (ops done : List (Op K)) (s : State K N B), Agrees s (logRev N done) →
      Agrees (final step s ops) (logRev N (ops.reverse ++ done)) := by
    intro ops
    induction ops with
    | nil => intro done s h; exact h
    | cons op ops ih =>
      intro done s h
      rw [final_cons, List.reverse_cons, List.append_assoc]
      exact ih (op :: done) _ (agrees_step h op)
  have := key ops [] init (agrees_init [] rfl)
  rw [List.append_nil] at this
  exact this

end Visr.Profiler
