import Verif.GainMatrix.Model
import Verif.GainFader.Lemmas
import Mathlib.Algebra.BigOperators.Group.Finset.Basic
import Mathlib.Algebra.BigOperators.Intervals

/-!
# C12, C13: gain matrices
-/

set_option linter.unusedSectionVars false

namespace Visr.GainMatrix
open Visr Visr.GainFader

variable {K : Type*} [Field K] [LinearOrder K] [IsStrictOrderedRing K]

/-! ## Specification -/

/-- The next block processed by the gain matrix is the matrix product with the time-variant gains `G`: for all inputs,
sample `k` of output `o` is the sum over all inputs `i` of `G o i k` times sample `k` of input `i`. -/
def HasGains (st : State K) (G : Nat → Nat → Nat → K) : Prop :=
  ∀ input : List (List K), (process st input).2 =
    (List.range st.prev.rows).map fun o => (List.range st.blockSize).map fun k =>
      ∑ i ∈ Finset.range st.prev.cols, G o i k * (input.getD i []).getD k 0

/-! ## Invariant -/

structure Inv (st : State K) (inputs outputs b s : Nat) : Prop where
  good : Good st.fader b s
  block : st.blockSize = b
  prows : st.prev.rows = outputs
  pcols : st.prev.cols = inputs
  nrows : st.next.rows = outputs
  ncols : st.next.cols = inputs
  count : st.counter ≤ st.fader.interpolationPeriods

theorem inv_mk {junk : K} {inputs outputs b s : Nat} {m : Mat K} {st : State K}
    (h : mk junk inputs outputs b s m = .ok st) :
    Inv st inputs outputs b s ∧ st.prev = m ∧ st.next = m := by
  unfold mk at h
  cases hf : GainFader.mk junk b s with
  | ok f =>
    simp only [hf] at h
    by_cases hd : m.rows ≠ outputs ∨ m.cols ≠ inputs
    · simp [hd] at h
    · simp only [hd, if_false] at h
      injection h with h
      subst h
      have h1 : m.rows = outputs := by by_contra h; exact hd (Or.inl h)
      have h2 : m.cols = inputs := by by_contra h; exact hd (Or.inr h)
      exact ⟨⟨mk_good hf, rfl, h1, h2, h1, h2, Nat.zero_le _⟩, rfl, rfl⟩
  | throw e => simp [hf] at h
  | ub => simp [hf] at h

theorem inv_process {st : State K} {inputs outputs b s : Nat} (h : Inv st inputs outputs b s)
    (input : List (List K)) : Inv (process st input).1 inputs outputs b s := by
  refine ⟨h.good, h.block, h.prows, h.pcols, h.nrows, h.ncols, ?_⟩
  have := h.count
  simp only [process]
  split_ifs <;> omega

theorem inv_set {st : State K} {inputs outputs b s : Nat} (h : Inv st inputs outputs b s) (eps : K) (m : Mat K)
    (hr : m.rows = outputs) (hc : m.cols = inputs) :
    Inv (setGainsInternal eps st m) inputs outputs b s := by
  refine ⟨h.good, h.block, ?_, ?_, hr, hc, Nat.zero_le _⟩
  · simp only [setGainsInternal]; split_ifs
    · exact h.nrows
    · exact h.prows
  · simp only [setGainsInternal]; split_ifs
    · exact h.ncols
    · exact h.pcols

theorem set_ok {st : State K} {inputs outputs b s : Nat} (h : Inv st inputs outputs b s) (eps : K) (m : Mat K)
    (hr : m.rows = outputs) (hc : m.cols = inputs) :
    setNewGains eps st m = .ok (setGainsInternal eps st m) := by
  simp [setNewGains, hr, hc, h.prows, h.pcols]

theorem inv_step {st : State K} {inputs outputs b s : Nat} (eps : K) (h : Inv st inputs outputs b s) (op : Op K) :
    Inv (step eps st op).1 inputs outputs b s := by
  cases op with
  | process input => exact inv_process h input
  | processNew input m =>
    simp only [step, setNewGains]
    by_cases hd : m.rows ≠ st.prev.rows ∨ m.cols ≠ st.prev.cols
    · simp only [hd, if_true]; exact h
    · simp only [hd, if_false]
      apply inv_process
      apply inv_set h
      · by_contra hne; exact hd (Or.inl (by rw [h.prows]; exact hne))
      · by_contra hne; exact hd (Or.inr (by rw [h.pcols]; exact hne))
  | setNewGains m =>
    simp only [step, setNewGains]
    by_cases hd : m.rows ≠ st.prev.rows ∨ m.cols ≠ st.prev.cols
    · simp only [hd, if_true]; exact h
    · simp only [hd, if_false]
      apply inv_set h
      · by_contra hne; exact hd (Or.inl (by rw [h.prows]; exact hne))
      · by_contra hne; exact hd (Or.inr (by rw [h.pcols]; exact hne))

theorem inv_final {st : State K} {inputs outputs b s : Nat} (eps : K) (h : Inv st inputs outputs b s)
    (ops : List (Op K)) : Inv (final (step eps) st ops) inputs outputs b s :=
  final_induction (P := fun st => Inv st inputs outputs b s) (fun _ op h => inv_step eps h op) h ops

/-! ## Matrix product -/

theorem accumulate_eq {st : State K} {b s : Nat} (good : Good st.fader b s) (input : List (List K)) (o : Nat)
    (is : List Nat) (f : Nat → K) :
    accumulate st input o is ((List.range b).map f) = (List.range b).map (fun k => f k +
      (is.map (fun i => gainAt s (st.prev.at_ o i) (st.next.at_ o i) (st.counter * b + k)
        * (input.getD i []).getD k 0)).sum) := by
  induction is generalizing f with
  | nil => simp [accumulate]
  | cons i is ih =>
    rw [accumulate, good.scaleAndAccumulate]
    rw [ih]
    apply List.map_congr_left
    intro k hk
    have hk : k < b := by simpa using hk
    rw [List.getD_eq_getElem?_getD, List.getElem?_map, List.getElem?_range hk]
    simp only [Option.map_some, Option.getD_some, List.map_cons, List.sum_cons]
    ring

theorem sum_range' (n : Nat) (f : Nat → K) :
    ((List.range' 1 n).map f).sum = ∑ i ∈ Finset.range n, f (i + 1) := by
  induction n with
  | zero => simp
  | succ n ih =>
    rw [List.range'_concat, List.map_append, List.sum_append, ih, Finset.sum_range_succ]
    simp [Nat.add_comm]

/-- The time-variant gains of the next block. -/
theorem hasGains_of_inv {st : State K} {inputs outputs b s : Nat} (h : Inv st inputs outputs b s) :
    HasGains st (fun o i k => gainAt s (st.prev.at_ o i) (st.next.at_ o i) (st.counter * b + k)) := by
  intro input
  simp only [process, processAudio]
  by_cases h0 : st.prev.cols = 0
  · simp [h0]
  · simp only [h0, if_false]
    apply List.map_congr_left
    intro o _
    rw [h.good.scale, accumulate_eq h.good, h.block]
    apply List.map_congr_left
    intro k _
    rw [sum_range']
    obtain ⟨n, hn⟩ : ∃ n, st.prev.cols = n + 1 := ⟨st.prev.cols - 1, by omega⟩
    rw [hn, Finset.sum_range_succ', Nat.add_sub_cancel, add_comm]

theorem hasGains_congr {st : State K} {G G' : Nat → Nat → Nat → K} (h : HasGains st G)
    (e : ∀ o i k, k < st.blockSize → G o i k = G' o i k) : HasGains st G' := by
  intro input
  rw [h input]
  apply List.map_congr_left
  intro o _
  apply List.map_congr_left
  intro k hk
  apply Finset.sum_congr rfl
  intro i _
  rw [e o i k (by simpa using hk)]

/-- **C13, initial gains.** As long as no gains are set, the output is the product with the initial matrix, for every
size (also zero inputs) and any number of processed blocks. -/
theorem gainMatrix_initial {junk : K} {inputs outputs b s : Nat} {m : Mat K} {st : State K} {eps : K}
    (h : mk junk inputs outputs b s m = .ok st) (blocks : List (List (List K))) :
    HasGains (final (step eps) st (blocks.map .process)) (fun o i _ => m.at_ o i) := by
  obtain ⟨hi, hp, hn⟩ := inv_mk h
  have key : ∀ st', st'.prev = m → st'.next = m → (final (step eps) st' (blocks.map .process)).prev = m ∧
      (final (step eps) st' (blocks.map .process)).next = m := by
    induction blocks with
    | nil => intro st' h1 h2; exact ⟨h1, h2⟩
    | cons x xs ih => intro st' h1 h2; exact ih _ h1 h2
  obtain ⟨h1, h2⟩ := key st hp hn
  refine hasGains_congr (hasGains_of_inv (inv_final eps hi _)) ?_
  intro o i k _
  rw [h1, h2]
  simp [gainAt]

theorem process_counter {st : State K} {inputs outputs b s : Nat} {eps : K} (h : Inv st inputs outputs b s)
    (blocks : List (List (List K))) :
    (final (step eps) st (blocks.map .process)).counter
      = min (st.counter + blocks.length) st.fader.interpolationPeriods ∧
    (final (step eps) st (blocks.map .process)).prev = st.prev ∧
    (final (step eps) st (blocks.map .process)).next = st.next := by
  induction blocks generalizing st with
  | nil => have := h.count; simp; omega
  | cons x xs ih =>
    have hi := ih (st := (process st x).1) (inv_process h x)
    have hc := h.count
    refine ⟨?_, hi.2.1, hi.2.2⟩
    have := hi.1
    simp only [List.map_cons, final_cons, step] at this ⊢
    rw [this]
    simp only [process, List.length_cons]
    split_ifs <;> omega

/-- **C13 and C11 for matrices.** After arbitrary calls, a change to the gains `m` and `n` processed blocks, the next
block is the matrix product with gains that have moved linearly, per sample, from fixed start gains towards `m`. Once
`n * blockLength ≥ interpolationSteps` the gains are exactly `m`. -/
theorem gainMatrix_product {junk : K} {inputs outputs b s : Nat} {m₀ m : Mat K} {st : State K} {eps : K}
    (h : mk junk inputs outputs b s m₀ = .ok st) (past : List (Op K)) (hr : m.rows = outputs) (hc : m.cols = inputs)
    (blocks : List (List (List K))) :
    (∃ start : Nat → Nat → K,
      HasGains (final (step eps) st (past ++ .setNewGains m :: blocks.map .process))
        (fun o i k => gainAt s (start o i) (m.at_ o i) (blocks.length * b + k))) ∧
    (s ≤ blocks.length * b →
      HasGains (final (step eps) st (past ++ .setNewGains m :: blocks.map .process)) (fun o i _ => m.at_ o i)) := by
  obtain ⟨hi, -, -⟩ := inv_mk h
  have h1 := inv_final eps hi past
  rw [final_append]
  generalize final (step eps) st past = st1 at h1
  have h2 := inv_set h1 eps m hr hc
  have hs : (step eps st1 (.setNewGains m)).1 = setGainsInternal eps st1 m := by
    simp only [step, set_ok h1 eps m hr hc]
  rw [final_cons, hs]
  have h3 := process_counter (eps := eps) h2 blocks
  have h4 := inv_final eps h2 (blocks.map .process)
  have h5 := hasGains_of_inv h4
  generalize final (step eps) (setGainsInternal eps st1 m) (blocks.map .process) = st3 at h3 h4 h5
  have hstart : HasGains st3 (fun o i k => gainAt s ((setGainsInternal eps st1 m).prev.at_ o i) (m.at_ o i)
      (blocks.length * b + k)) := by
    refine hasGains_congr h5 ?_
    intro o i k _
    rw [h3.2.1, h3.2.2, h3.1]
    have hb := ceil_bounds (s := s) h2.good.pos
    have hp := h2.good.periods
    have hz : (setGainsInternal eps st1 m).counter = 0 := rfl
    rw [hz, Nat.zero_add, hp]
    show gainAt s _ (m.at_ o i) _ = _
    unfold gainAt
    by_cases hle : blocks.length ≤ (s + b - 1) / b
    · rw [Nat.min_eq_left hle]
    · rw [Nat.min_eq_right (by omega)]
      have : (s + b - 1) / b * b ≤ blocks.length * b := Nat.mul_le_mul_right _ (by omega)
      rw [progress_late (by omega), progress_late (by omega)]
  refine ⟨⟨_, hstart⟩, ?_⟩
  intro hlong
  refine hasGains_congr hstart ?_
  intro o i k _
  unfold gainAt
  rw [progress_late (by omega)]
  ring

/-! ## C12: continuity -/

/-- **C12 for `rbbl::GainMatrix`.** After arbitrary calls let a block be processed with the gains `G`, whose value at
the last sample of the block is the gain reached so far. If new gains `m` are set then (in the middle of a transition
or not), the following block moves linearly towards `m` from start gains that differ from the reached gains by at most
`epsilon * interpolationSteps / blockLength`: the code replaces small remainders by the target. -/
theorem gainMatrix_continues {junk : K} {inputs outputs b s : Nat} {m₀ m : Mat K} {st : State K} {eps : K}
    (heps : 0 ≤ eps)
    (h : mk junk inputs outputs b s m₀ = .ok st) (past : List (Op K)) (block : List (List K))
    (hr : m.rows = outputs) (hc : m.cols = inputs) :
    ∃ (G : Nat → Nat → Nat → K) (start : Nat → Nat → K),
      HasGains (final (step eps) st past) G ∧
      HasGains (final (step eps) st (past ++ [.process block, .setNewGains m]))
        (fun o i k => gainAt s (start o i) (m.at_ o i) k) ∧
      ∀ o i, |start o i - G o i (b - 1)| ≤ eps * s / b := by
  obtain ⟨hi, -, -⟩ := inv_mk h
  have h1 := inv_final eps hi past
  rw [final_append]
  generalize final (step eps) st past = st1 at h1
  have h2 := inv_process h1 block
  have h3 := inv_set h2 eps m hr hc
  have hs : (step eps (process st1 block).1 (.setNewGains m)).1 = setGainsInternal eps (process st1 block).1 m := by
    simp only [step, set_ok h2 eps m hr hc]
  refine ⟨_, fun o i => (setGainsInternal eps (process st1 block).1 m).prev.at_ o i, hasGains_of_inv h1, ?_, ?_⟩
  · have h4 := hasGains_of_inv h3
    rw [← hs] at h4
    refine hasGains_congr h4 ?_
    intro o i k _
    rw [hs]
    show gainAt s _ (m.at_ o i) (0 * b + k) = _
    rw [Nat.zero_mul, Nat.zero_add]
  · intro o i
    have hb := h1.good.pos
    have hbK : (0 : K) < b := by exact_mod_cast hb
    have hcb := ceil_bounds (s := s) hb
    have hp := h1.good.periods
    have hcount := h1.count
    have hsK : (0 : K) ≤ s := by exact_mod_cast Nat.zero_le s
    have hbound : 0 ≤ eps * s / b := by positivity
    have hpf : (process st1 block).1.fader = st1.fader := rfl
    have hpp : (process st1 block).1.prev = st1.prev := rfl
    have hpn : (process st1 block).1.next = st1.next := rfl
    have hpb : (process st1 block).1.blockSize = st1.blockSize := rfl
    simp only [setGainsInternal, hpf, hpp, hpn, hpb]
    by_cases hset : st1.fader.interpolationPeriods ≤ (process st1 block).1.counter
    · -- the transition is complete
      simp only [hset, if_true]
      have hlate : s ≤ (st1.counter + 1) * b := by
        have : (s + b - 1) / b ≤ st1.counter + 1 := by
          simp only [process] at hset
          split_ifs at hset <;> omega
        have := Nat.mul_le_mul_right b this
        omega
      have hprog : progress (K := K) s (st1.counter * b + (b - 1)) = 1 := by
        by_cases hlt : st1.counter * b + (b - 1) < s
        · have heq : s = st1.counter * b + b := by
            rw [Nat.add_mul] at hlate; omega
          unfold progress
          rw [if_pos hlt]
          rw [heq]
          have : ((st1.counter * b + (b - 1) : Nat) : K) + 1 = ((st1.counter * b + b : Nat) : K) := by
            rw [← Nat.cast_succ]; congr 1; omega
          rw [this, div_self]
          have : 0 < st1.counter * b + b := by omega
          exact_mod_cast this.ne'
        · exact progress_late (by omega)
      unfold gainAt
      rw [hprog]
      have : st1.next.at_ o i - (st1.prev.at_ o i + (st1.next.at_ o i - st1.prev.at_ o i) * 1) = 0 := by ring
      rw [this, abs_zero]
      exact hbound
    · -- the transition is still running
      simp only [hset, if_false]
      have hcnt : (process st1 block).1.counter = st1.counter + 1 := by
        simp only [process] at hset ⊢
        split_ifs at hset ⊢
        · rfl
        · omega
      rw [hcnt] at hset ⊢
      have hlt : (st1.counter + 1) * b < s := by
        have : st1.counter + 2 ≤ (s + b - 1) / b := by omega
        have := Nat.mul_le_mul_right b this
        have e1 : (st1.counter + 2) * b = (st1.counter + 1) * b + b := by ring
        omega
      have hsp : (0 : K) < s := by
        have : 0 < s := by omega
        exact_mod_cast this
      rw [h1.block, h1.good.samples]
      set r : K := (((st1.counter + 1) * b : Nat) : K) / (s : K) with hrdef
      have hr1 : r ≤ 1 := by
        rw [hrdef, div_le_one hsp]; exact_mod_cast hlt.le
      have hmin : min (1 : K) r = r := min_eq_right hr1
      have hprog : progress (K := K) s (st1.counter * b + (b - 1)) = r := by
        unfold progress
        rw [if_pos (by rw [Nat.add_mul] at hlt; omega), hrdef]
        congr 1
        rw [← Nat.cast_succ]; congr 1
        rw [Nat.add_mul]; omega
      simp only [hmin]
      unfold gainAt
      rw [hprog]
      set d : K := st1.next.at_ o i - st1.prev.at_ o i with hd
      have hrge : (b : K) / s ≤ r := by
        rw [hrdef]
        apply div_le_div_of_nonneg_right _ hsK
        have : b ≤ (st1.counter + 1) * b := by rw [Nat.add_mul]; omega
        exact_mod_cast this
      have hrpos : 0 < r := lt_of_lt_of_le (div_pos hbK hsp) hrge
      by_cases he : eps ≤ |r * d|
      · rw [if_pos he]
        have : st1.prev.at_ o i + r * d - (st1.prev.at_ o i + d * r) = 0 := by ring
        rw [this, abs_zero]
        exact hbound
      · rw [if_neg he]
        have e1 : st1.next.at_ o i - (st1.prev.at_ o i + d * r) = (1 - r) * d := by rw [hd]; ring
        rw [e1, abs_mul, abs_of_nonneg (by linarith)]
        have he' : r * |d| < eps := by
          have := not_le.mp he
          rwa [abs_mul, abs_of_pos hrpos] at this
        have hdn : 0 ≤ |d| := abs_nonneg d
        calc (1 - r) * |d| ≤ 1 * |d| := by
              apply mul_le_mul_of_nonneg_right _ hdn
              linarith
          _ = |d| := one_mul _
          _ ≤ eps * s / b := by
              rw [le_div_iff₀ hbK]
              have : (b : K) * |d| ≤ eps * s := by
                have h1 : (b : K) = (b / s) * s := by field_simp
                calc (b : K) * |d| = ((b / s) * |d|) * s := by rw [mul_assoc, mul_comm |d| (s : K), ← mul_assoc, ← h1]
                  _ ≤ (r * |d|) * s := by
                      apply mul_le_mul_of_nonneg_right _ hsK
                      exact mul_le_mul_of_nonneg_right hrge hdn
                  _ ≤ eps * s := mul_le_mul_of_nonneg_right he'.le hsK
              rw [mul_comm]; exact this

/-- A 1×1 matrix. -/
def one (x : ℚ) : Mat ℚ := ⟨1, 1, fun _ _ => x⟩

/-- A concrete history that meets the hypotheses: two blocks of a transition of four samples, then a change. -/
example : ∃ st, mk (99 : ℚ) 1 1 1 4 (one 0) = .ok st ∧ ∃ (G : Nat → Nat → Nat → ℚ) (start : Nat → Nat → ℚ),
      HasGains (final (step (1/1000)) st [.setNewGains (one 4)]) G ∧
      HasGains (final (step (1/1000)) st ([.setNewGains (one 4)] ++ [.process [[1]], .setNewGains (one 0)]))
        (fun o i k => gainAt 4 (start o i) 0 k) ∧
      ∀ o i, |start o i - G o i 0| ≤ (1/1000 : ℚ) * 4 / 1 := by
  obtain ⟨f, hf⟩ := mk_ok (99 : ℚ) 4 (show 0 < 1 by decide)
  have hd : mk (99 : ℚ) 1 1 1 4 (one 0) = .ok ⟨one 0, one 0, 1, 0, f⟩ := by simp [mk, hf, one]
  refine ⟨_, hd, ?_⟩
  have := gainMatrix_continues (eps := 1/1000) (m := one 0) (by norm_num) hd [.setNewGains (one 4)] [[1]] rfl rfl
  simpa [one] using this

/-- First sample of the first output. -/
def sample (r : State K × Outcome (List (List K))) : K :=
  match r.2 with
  | .ok out => (out.getD 0 []).getD 0 0
  | _ => 0

/-- **C12 (negation for repeated changes).** If gains are set twice without processing a block in between, the second
transition starts from the first target although it was never reached: with initial gain 0 and transitions of four
samples the changes to 4 and back to 0 make the gain jump from 0 to 3. -/
theorem gainMatrix_double_set_jumps : ∃ st, mk (99 : ℚ) 1 1 1 4 (one 0) = .ok st ∧
    sample (step (1/1000) st (.process [[1]])) = 0 ∧
    sample (step (1/1000) (final (step (1/1000)) st
      [.process [[1]], .setNewGains (one 4), .setNewGains (one 0)]) (.process [[1]])) = 3 := by
  obtain ⟨f, hf⟩ := mk_ok (99 : ℚ) 4 (show 0 < 1 by decide)
  have hg := mk_good hf
  have hd : mk (99 : ℚ) 1 1 1 4 (one 0) = .ok ⟨one 0, one 0, 1, 0, f⟩ := by simp [mk, hf, one]
  have hp : f.interpolationPeriods = 4 := by rw [hg.periods]
  refine ⟨_, hd, ?_, ?_⟩
  · simp [step, process, processAudio, one, sample, accumulate, hg.scale, gainAt]
  · simp [step, process, processAudio, one, sample, accumulate, hg.scale, gainAt, setNewGains, setGainsInternal,
      progress, hp, hg.samples]
    norm_num

/-! ## The component `rcl::GainMatrix` -/

/-- Without a control input `rcl::GainMatrix` behaves as `rbbl::GainMatrix` for all sizes. -/
theorem rclGainMatrix_no_control {st : State K} (eps : K)
    (input : List (List K)) :
    (rclProcess eps st (none, input)).2 = .ok (process st input).2 := by
  simp only [rclProcess]
  by_cases h0 : st.prev.rows = 0
  · simp [h0, process, processAudio]
  · by_cases h1 : st.prev.cols = 0
    · simp [h0, h1, process, processAudio]
    · simp [h0, h1]

/-- **C11 (negation for `rcl::GainMatrix` with a control input).** The component passes the gains from its control
input on in every `process()` call, which restarts the transition each time. With a constant gain of 1 at the control
input, initial gain 0 and a transition length of two samples, the gain is 3/4 instead of 1 after the two samples. -/
theorem rclGainMatrix_control_input_restarts : ∃ st, mk (99 : ℚ) 1 1 1 2 (one 0) = .ok st ∧
    sample (rclProcess (1/1000) st (some (one 1), [[1]])) = 1/2 ∧
    sample (rclProcess (1/1000) (rclProcess (1/1000) st (some (one 1), [[1]])).1 (some (one 1), [[1]])) = 3/4 := by
  obtain ⟨f, hf⟩ := mk_ok (99 : ℚ) 2 (show 0 < 1 by decide)
  have hg := mk_good hf
  have hd : mk (99 : ℚ) 1 1 1 2 (one 0) = .ok ⟨one 0, one 0, 1, 0, f⟩ := by simp [mk, hf, one]
  have hp : f.interpolationPeriods = 2 := by rw [hg.periods]
  refine ⟨_, hd, ?_, ?_⟩
  · simp [rclProcess, process, processAudio, one, sample, accumulate, hg.scale, gainAt, setNewGains, setGainsInternal,
      progress, hp, hg.samples]
  · simp [rclProcess, process, processAudio, one, sample, accumulate, hg.scale, gainAt, setNewGains, setGainsInternal,
      progress, hp, hg.samples]
    norm_num

end Visr.GainMatrix
