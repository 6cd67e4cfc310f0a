import Verif.PanningDsp.Lemmas
import Mathlib.Data.Rat.Defs
import Mathlib.Tactic.NormNum

/-!
# C69, C70: time-stamped panning gains

C69: every object follows the documented piecewise linear gain trajectory (`Spec.lean`), for all block sizes and all
histories of messages. The code deviates when a transition cuts off a gain change that is in progress, when a message
contains a time stamp in the past, and when a transition has a start time but no duration.

C70: copies of messages are equal to the original. Assignment fails unless the gain matrix is square.
-/

namespace Visr.PanningDsp

variable {K : Type*} [Field K] [CharZero K]

theorem forall_init {numLsp : Nat} : ∀ (gains : List (List K)), (∀ row ∈ gains, row.length = numLsp) →
    List.Forall₂ (R numLsp 0) (gains.map (Obj.init numLsp)) (gains.map Traj.init)
  | [], _ => by simp
  | g :: gs, h => List.Forall₂.cons (R_init numLsp g (h g (by simp))) (forall_init gs fun r hr => h r (by simp [hr]))

omit [CharZero K] in
/-- **C69.** A component can be constructed exactly if the initial gains have one row per object and one column per
loudspeaker. -/
theorem create_check (period numObjs numLsp : Nat) (gains : List (List K)) :
    (∃ s, create period numObjs numLsp gains none = .ok s) ↔
      gains.length = numObjs ∧ ∀ row ∈ gains, row.length = numLsp := by
  unfold create
  split
  · rename_i h; exact ⟨fun _ => h, fun _ => ⟨_, rfl⟩⟩
  · rename_i h
    constructor
    · rintro ⟨s, hs⟩; cases hs
    · intro h'; exact absurd h' h

/-- **C69, exact behaviour of the code.** For every history of messages whose transitions are not in the past and do
not exceed the range of the time type, the outputs are those of the documented trajectories, except that a transition
that cuts off a gain change in progress is received as `receiveActual` says. -/
theorem gain_trajectory_law (period numObjs numLsp : Nat) (gains : List (List K)) (s : State K)
    (hs : create period numObjs numLsp gains none = .ok s) (ops : List (Op K))
    (h : Admissible receiveActual (fun _ _ _ => True) numLsp period 0 (gains.map Traj.init) ops) :
    (run step s ops).2 = (specRun receiveActual numLsp period 0 (gains.map Traj.init) ops).map .ok := by
  unfold create at hs
  split at hs
  · rename_i hc
    simp only [Outcome.ok.injEq] at hs
    subst hs
    exact run_law numLsp period ops 0 _ _ (forall_init gains hc.2) h
  · cases hs

theorem admissible_actual (numLsp period : Nat) : ∀ (ops : List (Op K)) (clock : Nat) (ss : List (Traj K)),
    Admissible Traj.receive NoInterruption numLsp period clock ss ops →
    Admissible receiveActual (fun _ _ _ => True) numLsp period clock ss ops ∧
      specRun receiveActual numLsp period clock ss ops = specRun Traj.receive numLsp period clock ss ops
  | [], _, _, _ => ⟨trivial, rfl⟩
  | op :: ops, clock, ss, ⟨h1, h2, h3, h4, h5⟩ => by
    have e : receiveAll receiveActual clock ss op.message = receiveAll Traj.receive clock ss op.message := by
      cases hm : op.message with
      | none => rfl
      | some m =>
        have h6 := h4 m hm
        simp only [receiveAll]
        clear h5 hm h2 h4
        induction h6 with
        | nil => rfl
        | cons a _ ih =>
          simp only [List.zipWith_cons_cons]
          rw [receiveActual_eq _ _ a.2, ih]
    obtain ⟨i1, i2⟩ := admissible_actual numLsp period ops (clock + period) _ h5
    refine ⟨⟨h1, h2, h3, fun m hm => (h4 m hm).imp fun _ _ h => ⟨h.1, trivial⟩, ?_⟩, ?_⟩
    · rw [e]; exact i1
    · simp only [specRun]
      rw [e, i2]

/-- **C69 (partial).** For every history in which no transition is in the past, exceeds the range of the time type or
cuts off a gain change in progress, every loudspeaker signal is the sum over all objects of the object signal times the
gain of the documented trajectory. Missing: transitions that cut off a gain change (`interruption_jumps`,
`stored_interruption_jumps`) and late messages (`late_message_blocks`), where the code deviates from its documentation,
and transitions without duration (`missing_duration_ub`). -/
theorem gain_trajectory_partial (period numObjs numLsp : Nat) (gains : List (List K)) (s : State K)
    (hs : create period numObjs numLsp gains none = .ok s) (ops : List (Op K))
    (h : Admissible Traj.receive NoInterruption numLsp period 0 (gains.map Traj.init) ops) :
    (run step s ops).2 = (specRun Traj.receive numLsp period 0 (gains.map Traj.init) ops).map .ok := by
  obtain ⟨h1, h2⟩ := admissible_actual numLsp period ops 0 _ h
  rw [gain_trajectory_law period numObjs numLsp gains s hs ops h1, h2]

omit [CharZero K] in
/-- **C69.** Initial transitions passed to the constructor have the same effect as a message for the first block. -/
theorem initial_transitions (period numObjs numLsp : Nat) (gains : List (List K)) (m : List (Transition K))
    (s0 s1 : State K) (h0 : create period numObjs numLsp gains none = .ok s0)
    (h1 : create period numObjs numLsp gains (some m) = .ok s1) (op : Op K) (hop : op.message = none)
    (ops : List (Op K)) : run step s1 (op :: ops) = run step s0 ({ op with message := some m } :: ops) := by
  unfold create at h0 h1
  split at h0
  · rename_i hc
    rw [if_pos hc] at h1
    simp only [Outcome.ok.injEq] at h0
    subst h0
    have hstep : step s1 op = step (⟨numLsp, period, 0, gains.map (Obj.init numLsp), none⟩ : State K)
        { op with message := some m } := by
      rcases hu : updateTransitions 0 (gains.map (Obj.init numLsp)) m with ⟨objs', r⟩
      cases r with
      | ok u =>
        simp only [hu, Outcome.ok.injEq] at h1
        subst h1
        have e1 : ((none : Option (List (Transition K))) <|> none) = none := rfl
        have e2 : (some m <|> (none : Option (List (Transition K)))) = some m := rfl
        simp only [step, hop, e1, e2, applyMessage, hu]
      | throw e => simp only [hu] at h1; cases h1
      | ub => simp only [hu] at h1; cases h1
    rw [run, run, hstep]
  · cases h0

/-! ## Deviations from the documentation -/

/-- One object, one loudspeaker, blocks of four samples of the constant signal 1. -/
def block (m : Option (Transition ℚ)) : Op ℚ := ⟨m.map (fun t => [t]), [[1, 1, 1, 1]], [[0, 0, 0, 0]]⟩

/-- **C69, negation.** A gain change from 0 to 1 over eight samples, replaced after four samples by another change to
1: as documented the gain rises from 1/2, but in the code it jumps back to 0 and rises from there. -/
theorem interruption_jumps : ∃ s, create 4 1 1 [[(0 : ℚ)]] none = .ok s ∧
    (run step s [block (some ⟨0, 8, [1]⟩), block (some ⟨4, 4, [1]⟩)]).2 =
      [.ok [[1/8, 2/8, 3/8, 4/8]], .ok [[1/4, 2/4, 3/4, 1]]] ∧
    specRun Traj.receive 1 4 0 [Traj.init [(0 : ℚ)]] [block (some ⟨0, 8, [1]⟩), block (some ⟨4, 4, [1]⟩)] =
      [[[1/8, 2/8, 3/8, 4/8]], [[5/8, 6/8, 7/8, 1]]] := by
  refine ⟨_, rfl, ?_, ?_⟩ <;> decide +kernel

/-- **C69, negation.** A gain change from 0 to 1 over sixteen samples; at time 4 a transition is received that starts at
time 8. As documented the change goes on until time 8, but in the code the gain jumps back and is redirected to the gain
of the time when the message was received. -/
theorem stored_interruption_jumps : ∃ s, create 4 1 1 [[(0 : ℚ)]] none = .ok s ∧
    (run step s [block (some ⟨0, 16, [1]⟩), block (some ⟨8, 4, [1]⟩)]).2 =
      [.ok [[1/16, 2/16, 3/16, 4/16]], .ok [[5/32, 6/32, 7/32, 8/32]]] ∧
    specRun Traj.receive 1 4 0 [Traj.init [(0 : ℚ)]] [block (some ⟨0, 16, [1]⟩), block (some ⟨8, 4, [1]⟩)] =
      [[[1/16, 2/16, 3/16, 4/16]], [[5/16, 6/16, 7/16, 8/16]]] := by
  refine ⟨_, rfl, ?_, ?_⟩ <;> decide +kernel

/-- **C69, negation.** A stored transition that has been replaced has an effect: a gain change from 0 to 1 over eight
samples, then a transition for time 6 that is replaced by one for time 100 before it starts. As documented the first
change is completed, but in the code it stays cut off. -/
theorem replaced_transition_cuts_off : ∃ s, create 4 1 1 [[(0 : ℚ)]] none = .ok s ∧
    (run step s [block (some ⟨0, 12, [1]⟩), block (some ⟨10, 4, [0]⟩), block (some ⟨100, 4, [0]⟩), block none]).2[3]? =
      some (.ok [[1/3, 1/3, 1/3, 1/3]]) ∧
    (specRun Traj.receive 1 4 0 [Traj.init [(0 : ℚ)]]
      [block (some ⟨0, 12, [1]⟩), block (some ⟨10, 4, [0]⟩), block (some ⟨100, 4, [0]⟩), block none])[3]? =
      some [[1, 1, 1, 1]] := by
  refine ⟨_, rfl, ?_, ?_⟩ <;> decide +kernel

omit [CharZero K] in
theorem late_throws (clock : Nat) : ∀ (os : List (Obj K)) (ms : List (Transition K)), ms.length = os.length →
    (∃ m ∈ ms, m.start < clock) → clock ≤ infinity →
    ∃ os', updateTransitions clock os ms = (os', .throw .runtimeError) ∧ os'.length = os.length
  | [], [], _, ⟨m, hm, _⟩, _ => by cases hm
  | [], _ :: _, h, _, _ => by simp at h
  | _ :: _, [], h, _, _ => by simp at h
  | o :: os, m :: ms, hlen, hex, hc => by
    unfold updateTransitions
    by_cases hl : m.start < clock
    · have : updateTransition o clock m = .throw .runtimeError := by
        unfold updateTransition
        rw [if_neg (by omega), if_pos hl]
      simp only [this]
      exact ⟨_, rfl, rfl⟩
    · have hex' : ∃ m ∈ ms, m.start < clock := by
        obtain ⟨m', hm', hl'⟩ := hex
        rcases List.mem_cons.1 hm' with rfl | hm'
        · exact absurd hl' hl
        · exact ⟨m', hm', hl'⟩
      obtain ⟨os', hos', hl'⟩ := late_throws clock os ms (by simpa using hlen) hex' hc
      have hok : ∃ o', updateTransition o clock m = .ok o' := by
        unfold updateTransition
        by_cases h1 : m.start = infinity
        · rw [if_pos h1]; exact ⟨_, rfl⟩
        · rw [if_neg h1, if_neg hl]
          by_cases h2 : m.start = clock
          · rw [if_pos h2]; exact ⟨_, rfl⟩
          · rw [if_neg h2]; exact ⟨_, rfl⟩
      obtain ⟨o', ho'⟩ := hok
      simp only [ho', hos']
      exact ⟨_, rfl, by simp [hl']⟩

omit [CharZero K] in
/-- **C69, negation.** A message with a time stamp in the past for any object is documented to be ignored. In the code
the call throws, no audio is produced, the clock stops, and all further calls throw as well until another message
arrives. -/
theorem late_message_blocks (s : State K) (m : List (Transition K)) (hm : m.length = s.objs.length)
    (hlate : ∃ t ∈ m, t.start < s.clock) (hc : s.clock ≤ infinity) (op : Op K)
    (hop : op.message = some m ∨ op.message = none ∧ s.message = some m) :
    ∀ (ops : List (Op K)), (∀ o ∈ ops, o.message = none) →
      (∀ r ∈ (run step s (op :: ops)).2, r = .throw .runtimeError) ∧
      (run step s (op :: ops)).1.clock = s.clock := by
  have key : ∀ (s : State K) (op : Op K), m.length = s.objs.length → (∃ t ∈ m, t.start < s.clock) →
      s.clock ≤ infinity → (op.message = some m ∨ op.message = none ∧ s.message = some m) →
      ∃ os', step s op = ({ s with objs := os', message := some m }, .throw .runtimeError) ∧
        os'.length = s.objs.length := by
    intro s op hm hlate hc hop
    have e : (op.message <|> s.message) = some m := by
      rcases hop with h | ⟨h1, h2⟩
      · rw [h]; rfl
      · rw [h1, h2]; rfl
    obtain ⟨os', h1, h2⟩ := late_throws s.clock s.objs m hm hlate hc
    refine ⟨os', ?_, h2⟩
    unfold step
    simp only [e, applyMessage, h1]
  intro ops
  induction ops generalizing s op with
  | nil =>
    intro _
    obtain ⟨os', h1, h2⟩ := key s op hm hlate hc hop
    simp [run, h1]
  | cons o ops ih =>
    intro hnone
    obtain ⟨os', h1, h2⟩ := key s op hm hlate hc hop
    obtain ⟨i1, i2⟩ := ih { s with objs := os', message := some m } (by simp only; omega) hlate hc o
      (Or.inr ⟨hnone o (by simp), rfl⟩) (fun o' ho' => hnone o' (by simp [ho']))
    rw [run]
    simp only [h1]
    refine ⟨?_, i2⟩
    intro r hr
    rcases List.mem_cons.1 hr with rfl | hr
    · rfl
    · exact i1 r hr

omit [CharZero K] in
/-- **C69, negation.** A default-constructed message has infinite durations. If only its start time is set, to the
present time of any block but the first, then the end of the transition wraps around to the past, and the component
writes behind the end of its output buffers. -/
theorem missing_duration_ub (s : State K) (o : Obj K) (x : List K) (stale : List (List K)) (g : List K)
    (hobjs : s.objs = [o]) (hclock : 0 < s.clock) (hperiod : 0 < s.period) (hend : s.clock + s.period < infinity) :
    (step s ⟨some [⟨s.clock, infinity, g⟩], [x], stale⟩).2 = .ub := by
  have hw : wadd s.clock infinity = s.clock - 1 := by unfold wadd infinity at *; omega
  have hi : infinity ≠ 0 := by unfold infinity; omega
  have hu : ∃ o', updateTransitions s.clock s.objs [⟨s.clock, infinity, g⟩] = ([o'], .ok ()) ∧
      o'.targetTime = s.clock - 1 := by
    rw [hobjs]
    unfold updateTransitions updateTransition
    simp only [lt_irrefl, if_false, if_true, if_neg hi, if_neg (show ¬ s.clock = infinity by omega)]
    exact ⟨_, rfl, hw⟩
  obtain ⟨o', ho', ht⟩ := hu
  have hl : objectLoop (scalingRamp s.period : List K) s.clock s.period false [o'] [x] stale = .ub := by
    unfold objectLoop
    rw [wadd_eq hend]
    have : slopeLoop (scalingRamp s.period : List K) x false (s.clock + s.period) s.period s.clock 0 o' stale = .ub := by
      unfold slopeLoop
      rw [if_pos (by omega)]
      obtain ⟨k, hk⟩ : ∃ k, s.period = k + 1 := ⟨s.period - 1, by omega⟩
      rw [hk]
      simp only
      rw [if_neg (by omega)]
    simp only [this]
  unfold step
  have e : (some [(⟨s.clock, infinity, g⟩ : Transition K)] <|> s.message) = some [⟨s.clock, infinity, g⟩] := rfl
  simp only [e, applyMessage, ho', processAudio, List.length_singleton, one_ne_zero, if_false, hl]

omit [CharZero K] in
/-- **C69, negation.** The constructor checks the dimensions of the initial gains but not of the initial transitions:
with fewer entries than objects, all valid so far, it reads behind the end of the arrays. -/
theorem short_initial_transitions_ub (period numLsp : Nat) (gains : List (List K)) (m : List (Transition K))
    (hg : ∀ row ∈ gains, row.length = numLsp) (hm : m.length < gains.length) :
    create period gains.length numLsp gains (some m) = .ub := by
  have key : ∀ (os : List (Obj K)) (m : List (Transition K)), m.length < os.length →
      ∃ os', updateTransitions 0 os m = (os', .ub) := by
    intro os
    induction os with
    | nil => intro m h; simp at h
    | cons o os ih =>
      intro m h
      cases m with
      | nil => exact ⟨_, rfl⟩
      | cons t m =>
        obtain ⟨os', hos'⟩ := ih m (by simpa using h)
        have hok : ∃ o', updateTransition o 0 t = .ok o' := by
          unfold updateTransition
          by_cases h1 : t.start = infinity
          · rw [if_pos h1]; exact ⟨_, rfl⟩
          · rw [if_neg h1, if_neg (by omega)]
            by_cases h2 : t.start = 0
            · rw [if_pos h2]; exact ⟨_, rfl⟩
            · rw [if_neg h2]; exact ⟨_, rfl⟩
        obtain ⟨o', ho'⟩ := hok
        unfold updateTransitions
        simp only [ho', hos']
        exact ⟨_, rfl⟩
  obtain ⟨os', hos'⟩ := key (gains.map (Obj.init numLsp)) m (by simpa using hm)
  unfold create
  rw [if_pos ⟨rfl, hg⟩]
  simp only [hos']

/-! ## C70: copies of messages -/

/-- A parameter object whose arrays fit to its matrix. -/
def Param.WellFormed (p : Param K) : Prop :=
  p.gains.length = p.rows ∧ (∀ row ∈ p.gains, row.length = p.cols) ∧ p.timeStamps.length = p.rows ∧
    p.transitionTimes.length = p.rows

omit [CharZero K] in
/-- **C70 (partial).** A copy-constructed message equals the original; so does an assigned one if there are as many
objects as loudspeakers. Missing: all other assignments, which fail (`assign_fails`). -/
theorem copy_equal_partial (p rhs : Param K) :
    rhs.copy = rhs ∧ (rhs.WellFormed → rhs.rows = rhs.cols → p.assign rhs = (rhs, .ok ())) := by
  refine ⟨rfl, ?_⟩
  rintro ⟨h1, h2, h3, h4⟩ hsq
  obtain ⟨r, c, g, ts, tt⟩ := rhs
  simp only at *
  subst hsq
  simp [Param.assign, copyArray, h3, h4, Param.copyGains]

omit [CharZero K] in
/-- **C70, negation.** Assigning a message whose number of objects differs from the number of loudspeakers always
throws, whatever the target is, and the target is left with a transposed all-zero gain matrix. -/
theorem assign_fails (p rhs : Param K) (hw : rhs.WellFormed) (hne : rhs.rows ≠ rhs.cols) :
    p.assign rhs = (⟨rhs.cols, rhs.rows, zeroGains rhs.cols rhs.rows, rhs.timeStamps, rhs.transitionTimes⟩,
      .throw .invalidArgument) := by
  obtain ⟨h1, h2, h3, h4⟩ := hw
  simp [Param.assign, copyArray, h3, h4, Param.copyGains, Ne.symm hne]

omit [Field K] [CharZero K] in
/-- **C70.** Messages made from initialiser lists are accepted exactly if there is one start time and one duration per
object. -/
theorem ofLists_check (rows cols : Nat) (g : List (List K)) (ts tt : List Nat) :
    (∃ p, Param.ofLists rows cols g ts tt = .ok p) ↔ ts.length = rows ∧ tt.length = rows := by
  unfold Param.ofLists Param.ofArrays
  by_cases h1 : ts.length = rows <;> by_cases h2 : tt.length = rows <;> simp [h1, h2]

omit [Field K] [CharZero K] in
/-- **C70, negation.** Messages made from arrays are accepted whatever the sizes of the arrays are, so that not every
message has a start time and a duration for every object. -/
theorem ofArrays_unchecked (rows cols : Nat) (g : List (List K)) (ts tt : List Nat) (h : ts.length ≠ rows) :
    ∃ p, Param.ofArrays rows cols g ts tt = .ok p ∧ ¬ p.WellFormed :=
  ⟨_, rfl, fun hw => h hw.2.2.1⟩

/-! ## The hypotheses are satisfiable -/

/-- Two objects and two loudspeakers, blocks of four samples: the first object changes its gains within the second and
third block, then jumps; the second object replaces its stored transition. -/
def demoOps : List (Op ℚ) :=
  [⟨some [⟨5, 6, [1, 0]⟩, ⟨20, 3, [1, 1]⟩], [[1, 1, 1, 1], [2, 2, 2, 2]], [[7, 7, 7, 7], [7, 7, 7, 7]]⟩,
   ⟨some [⟨infinity, 0, []⟩, ⟨6, 2, [0, 1]⟩], [[1, 1, 1, 1], [2, 2, 2, 2]], [[7, 7, 7, 7], [7, 7, 7, 7]]⟩,
   ⟨none, [[1, 1, 1, 1], [2, 2, 2, 2]], [[7, 7, 7, 7], [7, 7, 7, 7]]⟩,
   ⟨some [⟨12, 0, [0, 1]⟩, ⟨infinity, 0, []⟩], [[1, 1, 1, 1], [2, 2, 2, 2]], [[7, 7, 7, 7], [7, 7, 7, 7]]⟩]

instance decValid {numLsp t : Nat} {m : Transition K} : Decidable (Valid numLsp t m) := by
  unfold Valid; infer_instance

instance decNoInterruption {t : Nat} {s : Traj K} {m : Transition K} : Decidable (NoInterruption t s m) := by
  unfold NoInterruption; infer_instance

example : Admissible Traj.receive NoInterruption 2 4 0 [Traj.init [(0 : ℚ), 0], Traj.init [1, 0]] demoOps := by
  refine ⟨by decide, rfl, ⟨rfl, by decide⟩, ?_, by decide, rfl, ⟨rfl, by decide⟩, ?_, by decide, rfl,
    ⟨rfl, by decide⟩, (by intro m hm; cases hm), by decide, rfl, ⟨rfl, by decide⟩, ?_, trivial⟩
  all_goals
    intro m hm
    cases hm
    refine List.Forall₂.cons ?_ (List.Forall₂.cons ?_ List.Forall₂.nil) <;> decide +kernel

example : ∃ s, create 4 2 2 [[(0 : ℚ), 0], [1, 0]] none = .ok s ∧
    (run step s demoOps).2[1]? = some (.ok [[2, 2 + 1/6, 1 + 2/6, 0 + 3/6], [0, 0, 1, 2]]) ∧
    (run step s demoOps).2[3]? = some (.ok [[0, 0, 0, 0], [3, 3, 3, 3]]) := by
  refine ⟨_, rfl, ?_, ?_⟩ <;> decide +kernel

example : (run step (⟨1, 4, 8, [Obj.init 1 [(0 : ℚ)]], none⟩ : State ℚ) [block (some ⟨7, 4, [1]⟩), block none]).2 =
    [.throw .runtimeError, .throw .runtimeError] := by decide +kernel

example : ((⟨1, 1, [[0]], [0], [0]⟩ : Param ℚ).assign ⟨2, 1, [[1], [2]], [0, 0], [0, 0]⟩).2 = .throw .invalidArgument :=
  by decide +kernel

end Visr.PanningDsp
