import Verif.GainVector.Model
import Verif.GainFader.Lemmas

/-!
# C11, C12 for `rcl::GainVector`
-/

namespace Visr.GainVector
open Visr Visr.GainFader

variable {K : Type*} [Field K] [LinearOrder K] [IsStrictOrderedRing K]

/-! ## Specification

A history is the list of `process()` calls with their control input (if changed) and audio input. What the user expects
is phrased with the gain vectors that arrived at the control input and the number of blocks since then. -/

/-- The gain vectors in force before and after the latest change, and the number of blocks since it, after a history
of control inputs. Initially both are the gains passed to `setup()`. -/
def targets (initial : List K) (h : List (Option (List K))) : List K × List K × Nat :=
  h.foldl (fun a c => match c with
    | none => (a.1, a.2.1, a.2.2 + 1)
    | some g => (a.2.1, g, 1)) (initial, initial, 0)

/-- Expected output block of channel `ch` at the end of a nonempty history of control inputs. -/
def expected (period steps : Nat) (initial : List K) (h : List (Option (List K))) (input : List (List K)) (ch : Nat) :
    List K :=
  let t := targets initial h
  (List.range period).map (fun i =>
    gainAt steps (t.1.getD ch 0) (t.2.1.getD ch 0) ((t.2.2 - 1) * period + i) * (input.getD ch []).getD i 0)

/-! ## Proof -/

/-- Invariant: the component represents the history `h`. -/
structure Rep (st : State K) (period channels steps : Nat) (initial : List K) (h : List (Option (List K))) : Prop where
  good : Good st.fader period steps
  chans : st.channels = channels
  cur : st.current = (targets initial h).1
  next : st.next = (targets initial h).2.1
  periods : st.periods = (steps + period - 1) / period
  counter : st.counter = min (targets initial h).2.2 st.periods
  len : (targets initial h).2.1.length = channels

omit [Field K] [LinearOrder K] [IsStrictOrderedRing K] in
theorem targets_snoc_none (initial : List K) (h : List (Option (List K))) :
    targets initial (h ++ [none]) =
      ((targets initial h).1, (targets initial h).2.1, (targets initial h).2.2 + 1) := by
  simp [targets, List.foldl_append]

omit [Field K] [LinearOrder K] [IsStrictOrderedRing K] in
theorem targets_snoc_some (initial g : List K) (h : List (Option (List K))) :
    targets initial (h ++ [some g]) = ((targets initial h).2.1, g, 1) := by
  simp [targets, List.foldl_append]

theorem gainAt_min {period steps : Nat} (hp : 0 < period) (g₀ g₁ : K) (n i : Nat) :
    gainAt steps g₀ g₁ (min n ((steps + period - 1) / period) * period + i)
      = gainAt steps g₀ g₁ (n * period + i) := by
  have hc := ceil_bounds (s := steps) hp
  by_cases h : n ≤ (steps + period - 1) / period
  · rw [Nat.min_eq_left h]
  · rw [Nat.min_eq_right (by omega)]
    unfold gainAt
    have : (steps + period - 1) / period * period ≤ n * period := Nat.mul_le_mul_right _ (by omega)
    rw [progress_late (by omega), progress_late (by omega)]

theorem processAudio_out {st : State K} {period channels steps : Nat} (good : Good st.fader period steps)
    (hp : st.periods = (steps + period - 1) / period) (hch : st.channels = channels) (n : Nat)
    (hc : st.counter = min n st.periods) (input : List (List K)) :
    (processAudio st input).2 = (List.range channels).map (fun ch => (List.range period).map (fun i =>
      gainAt steps (st.current.getD ch 0) (st.next.getD ch 0) (n * period + i) * (input.getD ch []).getD i 0)) := by
  unfold processAudio
  simp only [hch]
  apply List.map_congr_left
  intro ch _
  rw [good.scale]
  apply List.map_congr_left
  intro i _
  rw [hc, hp, gainAt_min good.pos]

theorem rep_process {st : State K} {period channels steps : Nat} {initial : List K} {h : List (Option (List K))}
    (r : Rep st period channels steps initial h) (c : Option (List K)) (hc : ∀ g, c = some g → g.length = channels)
    (input : List (List K)) :
    Rep (process st (c, input)).1 period channels steps initial (h ++ [c]) ∧
    (process st (c, input)).2 =
      .ok ((List.range channels).map (expected period steps initial (h ++ [c]) input)) := by
  cases c with
  | none =>
    simp only [process]
    constructor
    · refine ⟨r.good, r.chans, ?_, ?_, r.periods, ?_, ?_⟩
      · rw [targets_snoc_none]; exact r.cur
      · rw [targets_snoc_none]; exact r.next
      · rw [targets_snoc_none]
        have := r.counter
        simp only [processAudio]
        omega
      · rw [targets_snoc_none]; exact r.len
    · rw [processAudio_out r.good r.periods r.chans _ r.counter]
      unfold expected
      simp only [targets_snoc_none, r.cur, r.next, Nat.add_sub_cancel]
  | some g =>
    have hg : g.length = st.channels := by rw [r.chans]; exact hc g rfl
    have hs : setGain st g = .ok { st with current := st.next, next := g, counter := 0 } := by
      simp [setGain, hg]
    simp only [process, hs]
    constructor
    · refine ⟨r.good, r.chans, ?_, ?_, r.periods, ?_, ?_⟩
      · rw [targets_snoc_some]; exact r.next
      · rw [targets_snoc_some]; rfl
      · rw [targets_snoc_some]; simp only [processAudio]
      · rw [targets_snoc_some]; exact hc g rfl
    · rw [processAudio_out (st := { st with current := st.next, next := g, counter := 0 }) (n := 0) r.good r.periods r.chans (by simp)]
      unfold expected
      simp only [targets_snoc_some, r.next, Nat.sub_self]

theorem rep_final {st : State K} {period channels steps : Nat} {initial : List K} {h : List (Option (List K))}
    (r : Rep st period channels steps initial h) (ops : List (Option (List K) × List (List K)))
    (hv : ∀ o ∈ ops, ∀ g, o.1 = some g → g.length = channels) :
    Rep (final process st ops) period channels steps initial (h ++ ops.map (·.1)) := by
  induction ops generalizing st h with
  | nil => simpa using r
  | cons o ops ih =>
    have := (rep_process r o.1 (fun g hg => hv o (by simp) g hg) o.2).1
    have := ih this (fun o ho => hv o (by simp [ho]))
    simpa using this

theorem rep_setup {junk : K} {period channels steps : Nat} {initial : List K} {st : State K}
    (h : setup junk period channels steps initial = .ok st) (hl : initial.length = channels) :
    Rep st period channels steps initial [] := by
  unfold setup at h
  have h1 : ¬ initial.length < channels := by omega
  by_cases hp : period = 0
  · simp [h1, hp] at h
  · simp only [h1, hp, if_false] at h
    obtain ⟨f, hf⟩ := mk_ok junk steps (Nat.pos_of_ne_zero hp)
    rw [hf] at h
    simp at h
    subst h
    refine ⟨mk_good hf, rfl, ?_, ?_, rfl, ?_, ?_⟩
    · simp [targets, ← hl]
    · simp [targets, ← hl]
    · simp [targets]
    · simp [targets, hl]

/-- **C11.** For every block length, transition length, number of channels, initial gains, history of gain changes and
inputs: the block produced by any `process()` call is, sample by sample, the input scaled by the gain curve that moves
linearly from the previously targeted gain to the latest target, starting with the first sample after the change. -/
theorem gainVector_transition {junk : K} {period channels steps : Nat} {initial : List K} {st : State K}
    (hsetup : setup junk period channels steps initial = .ok st) (hlen : initial.length = channels)
    (past : List (Option (List K) × List (List K)))
    (hv : ∀ o ∈ past, ∀ g, o.1 = some g → g.length = channels)
    (c : Option (List K)) (hc : ∀ g, c = some g → g.length = channels) (input : List (List K)) :
    (process (final process st past) (c, input)).2 =
      .ok ((List.range channels).map (expected period steps initial (past.map (·.1) ++ [c]) input)) := by
  have := (rep_process (rep_final (rep_setup hsetup hlen) past hv) c hc input).2
  simpa using this

/-- **C11, end of the transition.** Once `ceil(steps / period)` blocks were processed since the latest change, the
gain is exactly the target and stays there as long as no new gains arrive. -/
theorem gainVector_settles {junk : K} {period channels steps : Nat} {initial : List K} {st : State K}
    (hsetup : setup junk period channels steps initial = .ok st) (hlen : initial.length = channels)
    (past quiet : List (Option (List K) × List (List K))) (g : List K) (block input : List (List K))
    (hv : ∀ o ∈ past, ∀ g, o.1 = some g → g.length = channels) (hg : g.length = channels)
    (hq : ∀ o ∈ quiet, o.1 = none) (hlong : steps ≤ (quiet.length + 1) * period) :
    (process (final process st (past ++ (some g, block) :: quiet)) (none, input)).2 =
      .ok ((List.range channels).map fun ch =>
        (List.range period).map fun i => g.getD ch 0 * (input.getD ch []).getD i 0) := by
  have hall : ∀ o ∈ past ++ (some g, block) :: quiet, ∀ g, o.1 = some g → g.length = channels := by
    intro o ho g' hg'
    simp only [List.mem_append, List.mem_cons] at ho
    rcases ho with ho | rfl | ho
    · exact hv o ho g' hg'
    · simp at hg'; rw [← hg']; exact hg
    · rw [hq o ho] at hg'; simp at hg'
  rw [gainVector_transition hsetup hlen _ hall none (by simp) input]
  congr 1
  apply List.map_congr_left
  intro ch _
  have hqm : quiet.map (·.1) = List.replicate quiet.length none := by
    rw [List.eq_replicate_iff]
    simp only [List.length_map, List.mem_map, true_and]
    rintro b ⟨o, ho, rfl⟩
    exact hq o ho
  have ht : ∀ n, targets initial (past.map (·.1) ++ some g :: List.replicate n none) =
      ((targets initial (past.map (·.1))).2.1, g, n + 1) := by
    intro n
    induction n with
    | zero => exact targets_snoc_some _ _ _
    | succ n ih =>
      rw [List.replicate_succ', show past.map (·.1) ++ some g :: (List.replicate n none ++ [none])
        = (past.map (·.1) ++ some g :: List.replicate n none) ++ [none] by simp, targets_snoc_none, ih]
  have ht' : targets initial ((past ++ (some g, block) :: quiet).map (·.1) ++ [none]) =
      ((targets initial (past.map (·.1))).2.1, g, quiet.length + 2) := by
    rw [targets_snoc_none]
    simp only [List.map_append, List.map_cons, hqm]
    rw [ht]
  unfold expected
  simp only [ht']
  apply List.map_congr_left
  intro i _
  congr 1
  unfold gainAt
  rw [progress_late (by show steps ≤ (quiet.length + 2 - 1) * period + i; simp; omega)]
  ring

omit [LinearOrder K] [IsStrictOrderedRing K] in
/-- **C11, other errors.** A gain vector of the wrong size is rejected with `invalid_argument` and changes nothing. -/
theorem gainVector_wrong_size (st : State K) (g : List K) (input : List (List K)) (h : g.length ≠ st.channels) :
    process st (some g, input) = (st, .throw .invalidArgument) := by
  simp [process, setGain, h]

/-- A concrete non-trivial history: two channels, blocks of 2, transitions of 3 samples. -/
def demo : Outcome (State ℚ) := setup 99 2 2 3 [1, 0]

example : ∃ st, demo = .ok st ∧
    (process (final process st [(some [4, 3], [[1, 1], [1, 1]])]) (none, [[1, 1], [1, 10]])).2
      = .ok [[4, 4], [3, 30]] := by
  obtain ⟨f, hf⟩ := mk_ok (99 : ℚ) 3 (show 0 < 2 by decide)
  have hd : demo = .ok ⟨2, [1, 0], [1, 0], 2, 0, f⟩ := by simp [demo, setup, hf]
  refine ⟨_, hd, ?_⟩
  rw [gainVector_transition hd rfl _ (by simp) none (by simp)]
  simp [expected, targets, gainAt, progress, List.range, List.range.loop]
  norm_num

/-! ## C12: interrupted transitions -/

/-- Gain of channel 0 that a `process()` call applies to a constant input 1 at sample `i`. -/
def appliedGain (r : State K × Outcome (List (List K))) (i : Nat) : K :=
  match r.2 with
  | .ok out => (out.getD 0 []).getD i 0
  | _ => 0

/-- **C12 (negation for `GainVector`).** A change during a running transition starts from the abandoned target, not
from the gain reached so far: with blocks of one sample and transitions of four samples, the changes `0 → 4` and, one
block later, `4 → 0` make the gain jump from 1 to 3, although no transition ever moves by more than 1 per sample. -/
theorem gainVector_interrupted_jumps :
    ∃ st, setup (99 : ℚ) 1 1 4 [0] = .ok st ∧
      appliedGain (process st (some [4], [[1]])) 0 = 1 ∧
      appliedGain (process (process st (some [4], [[1]])).1 (some [0], [[1]])) 0 = 3 := by
  obtain ⟨f, hf⟩ := mk_ok (99 : ℚ) 4 (show 0 < 1 by decide)
  have hd : setup (99 : ℚ) 1 1 4 [0] = .ok ⟨1, [0], [0], 4, 0, f⟩ := by simp [setup, hf]
  refine ⟨_, hd, ?_, ?_⟩
  · have := gainVector_transition hd rfl [] (by simp) (some [4]) (by simp) [[1]]
    simp only [final_nil] at this
    simp only [appliedGain, this]
    simp [expected, targets, gainAt, progress]
  · have := gainVector_transition hd rfl [(some [4], [[1]])] (by simp) (some [0]) (by simp) [[1]]
    simp only [final_cons, final_nil] at this
    simp only [appliedGain, this]
    simp [expected, targets, gainAt, progress]
    norm_num

end Visr.GainVector
