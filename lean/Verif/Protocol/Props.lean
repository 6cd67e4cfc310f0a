import Verif.Protocol.Model
import Mathlib.Tactic.Common

/-!
# Properties of the communication protocols (C03, C04, C05)
-/

namespace Visr.Protocol
open Visr

/-! ## C03: message queues -/

/-- Specification of a first-in first-out queue: the pending messages, oldest first. Connection calls do not concern
the contents. -/
def fifoStep (q : List α) : MQOp α → List α × Option (Outcome (Res α))
  | .enqueue _ v => (q ++ [v], some (.ok .unit))
  | .front _ =>
    match q with
    | [] => ([], some (.throw .logicError))
    | x :: r => (x :: r, some (.ok (.val x)))
  | .pop _ =>
    match q with
    | [] => ([], some (.throw .logicError))
    | _ :: r => (r, some (.ok .unit))
  | .clear _ => ([], some (.ok .unit))
  | .empty _ => (q, some (.ok (.bool (decide (q = [])))))
  | .size _ => (q, some (.ok (.size q.length)))
  | _ => (q, none)

/-- No call of the history used an unconnected port. -/
def NoUb (os : List (Outcome (Res α))) : Prop := ∀ o ∈ os, o ≠ .ub

private theorem mq_step_fifo (inT outT : PortId → Bool) (s : MQ α) (op : MQOp α)
    (h : (s.step inT outT op).2 ≠ .ub) :
    (fifoStep s.queue.reverse op).1 = (s.step inT outT op).1.queue.reverse ∧
    ∀ o, (fifoStep s.queue.reverse op).2 = some o → (s.step inT outT op).2 = o := by
  cases op with
  | enqueue p v =>
    simp only [MQ.step, fifoStep] at *
    split at h
    · rename_i hp; simp [hp, MQ.enqueue]
    · simp at h
  | front p =>
    simp only [MQ.step, fifoStep] at *
    split at h
    · rename_i hp
      simp only [hp, if_true, MQ.nextElement]
      rw [← List.head?_reverse]
      cases s.queue.reverse with
      | nil => simp
      | cons x r => simp
    · simp at h
  | pop p =>
    simp only [MQ.step, fifoStep] at *
    split at h
    · rename_i hp
      simp only [hp, if_true, MQ.popNextElement]
      rcases List.eq_nil_or_concat s.queue with hq | ⟨q, x, hq⟩
      · simp [hq]
      · simp [hq]
    · simp at h
  | clear p =>
    simp only [MQ.step, fifoStep] at *
    split at h
    · rename_i hp; simp [hp]
    · simp at h
  | empty p =>
    simp only [MQ.step, fifoStep] at *
    split at h
    · rename_i hp
      simp only [hp, if_true]
      cases s.queue with
      | nil => simp
      | cons x r => simp
    · simp at h
  | size p =>
    simp only [MQ.step, fifoStep] at *
    split at h
    · rename_i hp; simp [hp]
    · simp at h
  | connectInput p =>
    simp only [MQ.step, fifoStep, MQ.connectInput]
    split
    · simp
    · split <;> simp
  | connectOutput p =>
    simp only [MQ.step, fifoStep, MQ.connectOutput]
    split
    · simp
    · split <;> simp
  | disconnectInput p =>
    simp only [MQ.step, fifoStep, MQ.disconnectInput]
    split
    · simp
    · split <;> simp
  | disconnectOutput p =>
    simp only [MQ.step, fifoStep, MQ.disconnectOutput]
    split
    · simp
    · split <;> simp

private theorem mq_run_fifo (inT outT : PortId → Bool) (s : MQ α) (h : List (MQOp α))
    (hub : NoUb (run (MQ.step inT outT) s h).2) :
    (final (MQ.step inT outT) s h).queue.reverse = final fifoStep s.queue.reverse h ∧
    ∀ (i : Nat) (o : Outcome (Res α)), (run fifoStep s.queue.reverse h).2[i]? = some (some o) →
      (run (MQ.step inT outT) s h).2[i]? = some o := by
  induction h generalizing s with
  | nil => simp [run]
  | cons op h ih =>
    have hub1 : (MQ.step inT outT s op).2 ≠ .ub := hub _ (by simp [run])
    have hub2 : NoUb (run (MQ.step inT outT) (MQ.step inT outT s op).1 h).2 := fun o ho => hub o (by simp [run, ho])
    obtain ⟨h1, h2⟩ := mq_step_fifo inT outT s op hub1
    obtain ⟨h3, h4⟩ := ih _ hub2
    refine ⟨by simp only [final_cons, h1, h3], ?_⟩
    intro i o hi
    cases i with
    | zero =>
      simp only [run, List.getElem?_cons_zero, Option.some.injEq] at *
      exact h2 o hi
    | succ i =>
      simp only [run, List.getElem?_cons_succ] at *
      rw [h1] at hi
      exact h4 i o hi

/-- C03: for every history of enqueue/front/pop/clear/empty/size calls, in any order and mixed with connects and
disconnects, that uses only connected ports, every answer (value, size, exception) is the answer of a first-in first-out
queue subjected to the same history. In particular `front`/`pop` on an empty queue throw `std::logic_error` and change
nothing. -/
theorem messageQueue_is_fifo (inT outT : PortId → Bool) (h : List (MQOp α))
    (hub : NoUb (run (MQ.step inT outT) MQ.init h).2) (i : Nat) (o : Outcome (Res α))
    (ho : (run fifoStep [] h).2[i]? = some (some o)) :
    (run (MQ.step inT outT) MQ.init h).2[i]? = some o :=
  (mq_run_fifo inT outT MQ.init h hub).2 i o ho

/-- A history through connected ports that ends with reading the second message. -/
def demoHistory : List (MQOp Nat) :=
  [.connectInput 1, .connectOutput 2, .enqueue 2 10, .enqueue 2 20, .pop 1, .size 1, .front 1]

example : NoUb (run (MQ.step (fun _ => true) (fun _ => true)) MQ.init demoHistory).2 ∧
    (run fifoStep [] demoHistory).2[6]? = some (some (.ok (.val 20))) := by
  refine ⟨?_, by decide⟩
  intro o ho
  revert ho
  simp [demoHistory, run, MQ.step, MQ.connectInput, MQ.connectOutput, MQ.init, upd, MQ.enqueue, MQ.popNextElement,
    MQ.nextElement]
  rintro (rfl | rfl | rfl) <;> simp

/-- The messages enqueued during a history. -/
def enqueued : List (MQOp α) → List α
  | [] => []
  | .enqueue _ v :: h => v :: enqueued h
  | _ :: h => enqueued h

/-- The messages consumed during a history: what `front()` shows immediately before each successful `pop()`. -/
def consumed (step : MQ α → MQOp α → MQ α × Outcome (Res α)) (s : MQ α) : List (MQOp α) → List α
  | [] => []
  | .pop p :: h =>
    match (step s (.front p)).2, (step s (.pop p)).2 with
    | .ok (.val v), .ok _ => v :: consumed step (step s (.pop p)).1 h
    | _, _ => consumed step (step s (.pop p)).1 h
  | op :: h => consumed step (step s op).1 h

private theorem mq_log_aux (inT outT : PortId → Bool) (s : MQ α) (h : List (MQOp α))
    (hub : NoUb (run (MQ.step inT outT) s h).2) (hc : ∀ p, .clear p ∉ h) :
    s.queue.reverse ++ enqueued h =
      consumed (MQ.step inT outT) s h ++ (final (MQ.step inT outT) s h).queue.reverse := by
  induction h generalizing s with
  | nil => simp [enqueued, consumed]
  | cons op h ih =>
    have hub1 : (MQ.step inT outT s op).2 ≠ .ub := hub _ (by simp [run])
    have hub2 : NoUb (run (MQ.step inT outT) (MQ.step inT outT s op).1 h).2 := fun o ho => hub o (by simp [run, ho])
    have hc2 : ∀ p, .clear p ∉ h := fun p hp => hc p (by simp [hp])
    have ih' := ih _ hub2 hc2
    obtain ⟨h1, h2⟩ := mq_step_fifo inT outT s op hub1
    rw [final_cons]
    cases op with
    | enqueue p v =>
      simp only [enqueued, consumed, fifoStep] at *
      rw [← ih', ← h1]; simp
    | pop p =>
      have hin : s.inPtr p = true := by
        by_contra hcon
        simp [MQ.step, hcon] at hub1
      have hfront : (MQ.step inT outT s (.front p)).2 ≠ .ub := by
        simp only [MQ.step, hin, if_true, MQ.nextElement]; split <;> simp
      obtain ⟨-, hf2⟩ := mq_step_fifo inT outT s (.front p) hfront
      simp only [enqueued, consumed]
      cases hq : s.queue.reverse with
      | nil =>
        simp only [fifoStep, hq] at h1 h2 hf2
        rw [hf2 _ rfl, h2 _ rfl]
        simp only
        rw [← ih', ← h1]
      | cons x r =>
        simp only [fifoStep, hq] at h1 h2 hf2
        rw [hf2 _ rfl, h2 _ rfl]
        simp only [List.cons_append]
        rw [← ih', ← h1]
    | clear p => exact absurd (by simp) (hc p)
    | front p =>
      simp only [enqueued, consumed] at *
      rw [← ih', ← h1]
      simp only [fifoStep]; split <;> simp_all
    | empty p => simp only [enqueued, consumed, fifoStep] at *; rw [← ih', ← h1]
    | size p => simp only [enqueued, consumed, fifoStep] at *; rw [← ih', ← h1]
    | connectInput p => simp only [enqueued, consumed, fifoStep] at *; rw [← ih', ← h1]
    | connectOutput p => simp only [enqueued, consumed, fifoStep] at *; rw [← ih', ← h1]
    | disconnectInput p => simp only [enqueued, consumed, fifoStep] at *; rw [← ih', ← h1]
    | disconnectOutput p => simp only [enqueued, consumed, fifoStep] at *; rw [← ih', ← h1]

/-- C03: from any moment at which the queue is empty (the start, or after `clear`), over any history without a further
`clear`, the consumed messages are in order and exactly once the first of the enqueued ones, and `size()` is the number of
messages enqueued but not yet consumed. -/
theorem messageQueue_exactly_once (inT outT : PortId → Bool) (s : MQ α) (h : List (MQOp α))
    (hempty : s.queue = []) (hub : NoUb (run (MQ.step inT outT) s h).2) (hc : ∀ p, .clear p ∉ h) :
    consumed (MQ.step inT outT) s h <+: enqueued h ∧
    ∀ p, (final (MQ.step inT outT) s h).inPtr p = true →
      ((final (MQ.step inT outT) s h).step inT outT (.size p)).2 =
        .ok (.size ((enqueued h).length - (consumed (MQ.step inT outT) s h).length)) := by
  have := mq_log_aux inT outT s h hub hc
  rw [hempty, List.reverse_nil, List.nil_append] at this
  refine ⟨⟨_, this.symm⟩, ?_⟩
  intro p hp
  simp only [MQ.step, hp, if_true]
  rw [this]
  simp

example : enqueued demoHistory = [10, 20] ∧
    consumed (MQ.step (fun _ => true) (fun _ => true)) MQ.init demoHistory = [10] := by
  constructor
  · rfl
  · simp [demoHistory, consumed, MQ.step, MQ.connectInput, MQ.connectOutput, MQ.init, upd, MQ.enqueue,
      MQ.popNextElement, MQ.nextElement]

/-- C03: `clear` empties the queue. -/
theorem messageQueue_clear (inT outT : PortId → Bool) (s : MQ α) (p : PortId) (hp : s.inPtr p = true) :
    (s.step inT outT (.clear p)).1.queue = [] := by simp [MQ.step, hp]

/-! ## C05: connection discipline -/

/-- Invariant of the message queue protocol: the `getProtocol()` pointers of the ports agree with the attached ports. -/
def MQ.Inv (s : MQ α) : Prop :=
  (∀ p, s.inPtr p = true ↔ s.input = some p) ∧ (∀ p, s.outPtr p = true ↔ s.output = some p)

private theorem mq_inv_step (inT outT : PortId → Bool) (s : MQ α) (op : MQOp α) (h : s.Inv) :
    (s.step inT outT op).1.Inv := by
  obtain ⟨h1, h2⟩ := h
  cases op with
  | enqueue p v => simp only [MQ.step]; split <;> exact ⟨h1, h2⟩
  | front p => simp only [MQ.step]; split <;> exact ⟨h1, h2⟩
  | pop p =>
    simp only [MQ.step, MQ.popNextElement]
    split
    · split <;> exact ⟨h1, h2⟩
    · exact ⟨h1, h2⟩
  | clear p => simp only [MQ.step]; split <;> exact ⟨h1, h2⟩
  | empty p => simp only [MQ.step]; split <;> exact ⟨h1, h2⟩
  | size p => simp only [MQ.step]; split <;> exact ⟨h1, h2⟩
  | connectInput p =>
    simp only [MQ.step, MQ.connectInput]
    split
    · exact ⟨h1, h2⟩
    · split
      · exact ⟨h1, h2⟩
      · rename_i hn
        simp only [Option.not_isSome_iff_eq_none] at hn
        refine ⟨fun q => ?_, h2⟩
        have := h1 q
        simp only [upd, Option.some.injEq]
        by_cases hq : q = p
        · simp [hq]
        · simp only [hq, if_false, this, hn]; simp [Ne.symm hq]
  | connectOutput p =>
    simp only [MQ.step, MQ.connectOutput]
    split
    · exact ⟨h1, h2⟩
    · split
      · exact ⟨h1, h2⟩
      · rename_i hn
        simp only [Option.not_isSome_iff_eq_none] at hn
        refine ⟨h1, fun q => ?_⟩
        have := h2 q
        simp only [upd, Option.some.injEq]
        by_cases hq : q = p
        · simp [hq]
        · simp only [hq, if_false, this, hn]; simp [Ne.symm hq]
  | disconnectInput p =>
    simp only [MQ.step, MQ.disconnectInput]
    split
    · exact ⟨h1, h2⟩
    · split
      · exact ⟨h1, h2⟩
      · rename_i hn
        simp only [ne_eq, Decidable.not_not] at hn
        refine ⟨fun q => ?_, h2⟩
        have := h1 q
        simp only [upd]
        by_cases hq : q = p
        · simp [hq]
        · simp only [hq, if_false, this, ← hn]; simp [Ne.symm hq]
  | disconnectOutput p =>
    simp only [MQ.step, MQ.disconnectOutput]
    split
    · exact ⟨h1, h2⟩
    · split
      · exact ⟨h1, h2⟩
      · rename_i hn
        simp only [ne_eq, Decidable.not_not] at hn
        refine ⟨h1, fun q => ?_⟩
        have := h2 q
        simp only [upd]
        by_cases hq : q = p
        · simp [hq]
        · simp only [hq, if_false, this, ← hn]; simp [Ne.symm hq]

private theorem mq_reach (inT outT : PortId → Bool) (h : List (MQOp α)) :
    (final (MQ.step inT outT) (MQ.init : MQ α) h).Inv :=
  final_induction (P := MQ.Inv) (mq_inv_step inT outT) (by simp [MQ.Inv, MQ.init]) h

/-- C05, message queue: after every history (a) at most one input port and at most one output port point to the protocol,
(b) connecting an output throws `std::invalid_argument` and changes nothing if the port has the wrong type or any port is
already attached, and otherwise attaches exactly this port; likewise for inputs; (c) disconnecting returns `true` exactly
if this port (of the right type) was attached, and afterwards it is not attached. -/
theorem messageQueue_connections (inT outT : PortId → Bool) (h : List (MQOp α)) (p : PortId) :
    let s : MQ α := final (MQ.step inT outT) MQ.init h
    (∀ q r, s.inPtr q = true → s.inPtr r = true → q = r) ∧
    (∀ q r, s.outPtr q = true → s.outPtr r = true → q = r) ∧
    ((inT p = false ∨ ∃ q, s.inPtr q = true) →
      s.step inT outT (.connectInput p) = (s, .throw .invalidArgument)) ∧
    ((inT p = true ∧ ∀ q, s.inPtr q = false) →
      (s.step inT outT (.connectInput p)).2 = .ok .unit ∧
      (s.step inT outT (.connectInput p)).1.inPtr p = true) ∧
    ((outT p = false ∨ ∃ q, s.outPtr q = true) →
      s.step inT outT (.connectOutput p) = (s, .throw .invalidArgument)) ∧
    ((outT p = true ∧ ∀ q, s.outPtr q = false) →
      (s.step inT outT (.connectOutput p)).2 = .ok .unit ∧
      (s.step inT outT (.connectOutput p)).1.outPtr p = true) ∧
    (s.step inT outT (.disconnectInput p)).2 = .ok (.bool (inT p && s.inPtr p)) ∧
    (inT p = true → (s.step inT outT (.disconnectInput p)).1.inPtr p = false) ∧
    (s.step inT outT (.disconnectOutput p)).2 = .ok (.bool (outT p && s.outPtr p)) ∧
    (outT p = true → (s.step inT outT (.disconnectOutput p)).1.outPtr p = false) := by
  intro s
  obtain ⟨h1, h2⟩ : s.Inv := mq_reach inT outT h
  refine ⟨?_, ?_, ?_, ?_, ?_, ?_, ?_, ?_, ?_, ?_⟩
  · intro q r hq hr
    have := (h1 q).1 hq; have := (h1 r).1 hr; simp_all
  · intro q r hq hr
    have := (h2 q).1 hq; have := (h2 r).1 hr; simp_all
  · rintro (ht | ⟨q, hq⟩)
    · simp [MQ.step, MQ.connectInput, ht]
    · have := (h1 q).1 hq
      simp [MQ.step, MQ.connectInput, this]
  · rintro ⟨ht, hq⟩
    have hn : s.input = none := by
      cases hi : s.input with
      | none => rfl
      | some q => have := (h1 q).2 hi; rw [hq q] at this; simp at this
    simp [MQ.step, MQ.connectInput, ht, hn, upd]
  · rintro (ht | ⟨q, hq⟩)
    · simp [MQ.step, MQ.connectOutput, ht]
    · have := (h2 q).1 hq
      simp [MQ.step, MQ.connectOutput, this]
  · rintro ⟨ht, hq⟩
    have hn : s.output = none := by
      cases hi : s.output with
      | none => rfl
      | some q => have := (h2 q).2 hi; rw [hq q] at this; simp at this
    simp [MQ.step, MQ.connectOutput, ht, hn, upd]
  · simp only [MQ.step, MQ.disconnectInput]
    split
    · simp_all
    · split
      · rename_i hne
        have : s.inPtr p = false := by
          cases hp : s.inPtr p with
          | false => rfl
          | true => exact absurd ((h1 p).1 hp).symm hne
        simp [this]
      · rename_i ht hne
        have : s.inPtr p = true := (h1 p).2 (by simpa using Eq.symm (Decidable.not_not.1 hne))
        simp_all
  · intro ht
    simp only [MQ.step, MQ.disconnectInput, ht]
    simp only [Bool.not_true, Bool.false_eq_true, if_false]
    split
    · rename_i hne
      cases hp : s.inPtr p with
      | false => rfl
      | true => exact absurd ((h1 p).1 hp).symm hne
    · simp [upd]
  · simp only [MQ.step, MQ.disconnectOutput]
    split
    · simp_all
    · split
      · rename_i hne
        have : s.outPtr p = false := by
          cases hp : s.outPtr p with
          | false => rfl
          | true => exact absurd ((h2 p).1 hp).symm hne
        simp [this]
      · rename_i ht hne
        have : s.outPtr p = true := (h2 p).2 (by simpa using Eq.symm (Decidable.not_not.1 hne))
        simp_all
  · intro ht
    simp only [MQ.step, MQ.disconnectOutput, ht]
    simp only [Bool.not_true, Bool.false_eq_true, if_false]
    split
    · rename_i hne
      cases hp : s.outPtr p with
      | false => rfl
      | true => exact absurd ((h2 p).1 hp).symm hne
    · simp [upd]

/-- Non-vacuity: a reachable state with an attached input, in which a second connect is refused. -/
example : (MQ.step (fun _ => true) (fun _ => true)
    (final (MQ.step (fun _ => true) (fun _ => true)) (MQ.init : MQ Nat) [.connectInput 1]) (.connectInput 7)).2
      = .throw .invalidArgument := by
  simp [MQ.step, MQ.connectInput, MQ.init]

end Visr.Protocol
