import Verif.UdpSender.Spec
import Mathlib.Tactic.Common
import Mathlib.Tactic.SplitIfs
import Mathlib.Data.List.Basic

/-!
# Lemmas about the UDP sender: invariant, accounting, progress
-/

namespace Visr.UdpSender

instance (s : State) : Decidable (∃ n, s.send = .completed n) :=
  match h : s.send with
  | .completed n => isTrue ⟨n, rfl⟩
  | .none => isFalse (by simp)
  | .started => isFalse (by simp)
  | .failed => isFalse (by simp)

instance (s : State) : Decidable (∃ n, s.hpc = .inside n) :=
  match h : s.hpc with
  | .inside n => isTrue ⟨n, rfl⟩
  | .idle => isFalse (by simp)
  | .popped => isFalse (by simp)

/-- Messages in the internal buffer that have not been transmitted. -/
def untransmitted (s : State) : List Bytes :=
  if (∃ n, s.send = .completed n) ∨ (∃ n, s.hpc = .inside n) then s.internal.tail else s.internal

/-- Messages in the queue of the input port that have not been taken. -/
def untaken (s : State) : List Bytes :=
  match s.apc with
  | .syncSent => s.queue.tail
  | .copied _ => s.queue.tail
  | _ => s.queue

/-! ### The invariant -/

/-- The invariant of all schedules. -/
structure Inv (s : State) : Prop where
  lockH : s.lock = some .handler ↔ s.hpc ≠ .idle
  lockA : s.lock = some .audio ↔ ∃ p, s.apc = .loop p ∨ s.apc = .copied p
  active : s.lock = none → (s.send ≠ .none ↔ s.internal ≠ [])
  audioActive : ∀ p, s.apc = .loop p ∨ s.apc = .copied p → (s.send ≠ .none ↔ p = true) ∧ (p = true → s.internal ≠ [])
  inside : ∀ n, s.hpc = .inside n → s.send = .none ∧ ∃ m rest, s.internal = m :: rest ∧ m.length = n
  popped : s.hpc = .popped → s.send = .none
  completed : ∀ n, s.send = .completed n → ∃ m rest, s.internal = m :: rest ∧ m.length = n
  copied : s.apc = .syncSent ∨ (∃ p, s.apc = .copied p) → s.queue ≠ []
  syncMode : s.mode = .synchronous → s.internal = [] ∧ s.send = .none ∧ s.hpc = .idle ∧
    (s.apc = .idle ∨ s.apc = .syncLoop ∨ s.apc = .syncSent)
  asyncMode : s.mode = .asynchronous → s.apc ≠ .syncLoop ∧ s.apc ≠ .syncSent
  good : s.bad = false

theorem inv_init (mode : Mode) : Inv (init mode) := by
  constructor <;> simp [init]

theorem inv_step (s : State) (h : Inv s) (a : Act) : Inv (step s a) := by
  unfold step
  by_cases ht : s.terminated = true
  · rw [if_pos ht]; exact h
  rw [if_neg ht]
  obtain ⟨mode, queue, internal, send, hpc, apc, lock, wire, bad, terminated, thrown⟩ := s
  obtain ⟨h1, h2, h3, h4, h5, h6, h7, h8, h9, h10, h11⟩ := h
  simp only at *
  subst h11
  cases a with
  | enqueue m =>
    refine ⟨h1, h2, h3, h4, h5, h6, h7, ?_, h9, h10, rfl⟩
    simp
  | transmit ok =>
    simp only [transmit]
    cases send with
    | started =>
      cases internal with
      | nil =>
        exfalso
        cases hl : lock with
        | none => simpa using h3 hl
        | some t =>
          cases t with
          | audio =>
            obtain ⟨p, hp⟩ := h2.1 hl
            have := h4 p hp
            simp at this
          | handler =>
            have := h1.1 hl
            cases hpc with
            | idle => exact this rfl
            | inside n => simpa using (h5 n rfl).1
            | popped => simpa using h6 rfl
      | cons m rest =>
        simp only
        split_ifs
        · refine ⟨h1, h2, ?_, ?_, ?_, ?_, ?_, h8, ?_, h10, rfl⟩
          · simp
          · intro p hp; have := h4 p hp; simp at this ⊢; exact this
          · intro n hn; have := h5 n hn; simp at this
          · intro hp; have := h6 hp; simp at this
          · intro n hn; simp at hn; exact ⟨m, rest, rfl, hn⟩
          · intro hm; have := h9 hm; simp at this
        · refine ⟨h1, h2, ?_, ?_, ?_, ?_, ?_, h8, ?_, h10, rfl⟩
          · simp
          · intro p hp; have := h4 p hp; simp at this ⊢; exact this
          · intro n hn; have := h5 n hn; simp at this
          · intro hp; have := h6 hp; simp at this
          · intro n hn; simp at hn
          · intro hm; have := h9 hm; simp at this
    | none => exact ⟨h1, h2, h3, h4, h5, h6, h7, h8, h9, h10, rfl⟩
    | completed n => exact ⟨h1, h2, h3, h4, h5, h6, h7, h8, h9, h10, rfl⟩
    | failed => exact ⟨h1, h2, h3, h4, h5, h6, h7, h8, h9, h10, rfl⟩
  | handler =>
    simp only
    split_ifs with hm
    · exact ⟨h1, h2, h3, h4, h5, h6, h7, h8, h9, h10, rfl⟩
    · simp only [handlerStep]
      cases hpc with
      | idle =>
        simp only
        cases send with
        | none => exact ⟨h1, h2, h3, h4, h5, h6, h7, h8, h9, h10, rfl⟩
        | started => exact ⟨h1, h2, h3, h4, h5, h6, h7, h8, h9, h10, rfl⟩
        | failed => exact ⟨h1, h2, h3, h4, h5, h6, h7, h8, h9, h10, rfl⟩
        | completed n =>
          simp only
          split_ifs with hl
          · subst hl
            refine ⟨by simp, ?_, by simp, ?_, ?_, by simp, by simp, h8, fun e => absurd e hm, h10, rfl⟩
            · simpa using h2
            · intro p hp; have := h2.2 ⟨p, hp⟩; simp at this
            · intro k hk; simp at hk; subst hk; exact ⟨rfl, h7 n rfl⟩
          · exact ⟨h1, h2, h3, h4, h5, h6, h7, h8, h9, h10, rfl⟩
      | inside n =>
        obtain ⟨rfl, m, rest, rfl, hlen⟩ := h5 n rfl
        have hl : lock = some .handler := h1.2 (by simp)
        subst hl
        have hna : apc.accesses = false := by
          cases apc <;> simp_all [APc.accesses]
        simp only [hna, Bool.or_false]
        rw [if_neg (by simpa using hlen)]
        refine ⟨by simp, h2, by simp, ?_, by simp, by simp, by simp, h8, fun e => absurd e hm, h10, rfl⟩
        intro p hp
        have := h2.2 ⟨p, hp⟩; simp at this
      | popped =>
        have hs := h6 rfl
        subst hs
        have hl : lock = some .handler := h1.2 (by simp)
        subst hl
        have hna : apc.accesses = false := by
          cases apc <;> simp_all [APc.accesses]
        simp only [hna, Bool.or_false]
        have hne : ∀ p, ¬ (apc = .loop p ∨ apc = .copied p) := by
          intro p hp; have := h2.2 ⟨p, hp⟩; simp at this
        cases internal with
        | nil =>
          refine ⟨by simp, ?_, by simp, fun p hp => absurd hp (hne p), by simp, by simp, by simp, h8,
            fun e => absurd e hm, h10, by simp [hna]⟩
          simp only [ne_eq, not_true_eq_false, if_false]
          constructor
          · intro h; simp at h
          · rintro ⟨p, hp⟩; exact absurd hp (hne p)
        | cons m rest =>
          simp only [ne_eq, reduceCtorEq, not_false_eq_true, if_true, startSend]
          refine ⟨by simp, ?_, by simp, fun p hp => absurd hp (hne p), by simp, by simp, by simp, h8,
            fun e => absurd e hm, h10, by simp [hna]⟩
          constructor
          · intro h; simp at h
          · rintro ⟨p, hp⟩; exact absurd hp (hne p)
  | audio ok =>
    simp only [audioStep]
    cases apc with
    | idle =>
      refine ⟨h1, ?_, h3, ?_, h5, h6, h7, ?_, ?_, ?_, rfl⟩
      · have : ¬ lock = some .audio := by rw [h2]; simp
        simp only [this, false_iff]
        split_ifs <;> simp
      · intro p hp; simp only at hp; split_ifs at hp <;> simp at hp
      · intro hp; simp only at hp; split_ifs at hp <;> simp at hp
      · intro hm; simp only at hm; obtain ⟨a, b, c, -⟩ := h9 hm; simp [a, b, c, hm]
      · intro hm; simp only at hm; simp [hm]
    | syncLoop =>
      cases queue with
      | nil =>
        refine ⟨h1, by simpa using h2, h3, by simp, h5, h6, h7, by simp, ?_, by simp, rfl⟩
        intro hm; obtain ⟨a, b, c, -⟩ := h9 hm; simp [a, b, c]
      | cons m rest =>
        simp only
        have hsync : mode = .synchronous := by
          cases mode with
          | synchronous => rfl
          | asynchronous => simpa using (h10 rfl).1
        subst hsync
        split_ifs
        · refine ⟨h1, by simpa using h2, h3, by simp, h5, h6, h7, by simp, ?_, by simp, rfl⟩
          intro hm; obtain ⟨a, b, c, -⟩ := h9 hm; simp [a, b, c]
        · refine ⟨h1, by simpa using h2, h3, by simp, h5, h6, h7, by simp, ?_, by simp, rfl⟩
          intro hm; obtain ⟨a, b, c, -⟩ := h9 hm; simp [a, b, c]
    | syncSent =>
      have hsync : mode = .synchronous := by
        cases mode with
        | synchronous => rfl
        | asynchronous => simpa using (h10 rfl).2
      subst hsync
      refine ⟨h1, by simpa using h2, h3, by simp, h5, h6, h7, by simp, ?_, by simp, rfl⟩
      intro hm; obtain ⟨a, b, c, -⟩ := h9 hm; simp [a, b, c]
    | want =>
      have hasync : mode = .asynchronous := by
        cases mode with
        | asynchronous => rfl
        | synchronous => have := (h9 rfl).2.2.2; simp at this
      subst hasync
      simp only
      split_ifs with hl
      · subst hl
        refine ⟨by simpa using h1, ⟨fun _ => ⟨_, Or.inl rfl⟩, fun _ => rfl⟩, by simp, ?_, h5, h6, h7, by simp, by simp, by simp, rfl⟩
        intro p hp
        simp only [APc.loop.injEq, reduceCtorEq, or_false] at hp
        subst hp
        have := h3 rfl
        simp only [decide_eq_true_eq]
        exact ⟨this, fun h => h⟩
      · exact ⟨h1, h2, h3, h4, h5, h6, h7, h8, h9, h10, rfl⟩
    | loop p =>
      have hasync : mode = .asynchronous := by
        cases mode with
        | asynchronous => rfl
        | synchronous => have := (h9 rfl).2.2.2; simp at this
      subst hasync
      have hl : lock = some .audio := h2.2 ⟨p, Or.inl rfl⟩
      subst hl
      have hidle : hpc = .idle := by
        by_contra hne
        have := h1.2 hne
        simp at this
      subst hidle
      obtain ⟨ha, hb⟩ := h4 p (Or.inl rfl)
      cases queue with
      | cons m rest =>
        refine ⟨by simp, by simp, by simp, ?_, by simp, by simp, ?_, by simp, by simp, by simp, by simp⟩
        · intro q hq
          simp only [reduceCtorEq, APc.copied.injEq, false_or] at hq
          subst hq
          exact ⟨ha, by simp⟩
        · intro n hn
          obtain ⟨m', rest', e, hl⟩ := h7 n hn
          exact ⟨m', rest' ++ [cString m], by simp [e], hl⟩
      | nil =>
        simp only
        split_ifs with hc
        · obtain ⟨hi, rfl⟩ := hc
          have hs : send = .none := by
            by_contra hne; simpa using ha.1 hne
          subst hs
          refine ⟨by simp [startSend], by simp [startSend], ?_, by simp [startSend], by simp [startSend],
            by simp [startSend], by simp [startSend], by simp [startSend], by simp [startSend],
            by simp [startSend], by simp [startSend]⟩
          simp [startSend, hi]
        · refine ⟨by simp, by simp, ?_, by simp, by simp, by simp, h7, by simp, by simp, by simp, by simp⟩
          intro _
          cases p with
          | true => exact ⟨fun _ => hb rfl, fun _ => ha.2 rfl⟩
          | false =>
            constructor
            · intro hne; simpa using ha.1 hne
            · intro hi; exact absurd ⟨hi, rfl⟩ hc
    | copied p =>
      have hasync : mode = .asynchronous := by
        cases mode with
        | asynchronous => rfl
        | synchronous => have := (h9 rfl).2.2.2; simp at this
      subst hasync
      refine ⟨h1, ?_, h3, ?_, h5, h6, h7, by simp, by simp, by simp, rfl⟩
      · have := h2.2 ⟨p, Or.inr rfl⟩
        simp [this]
      · intro q hq
        simp only [APc.loop.injEq, reduceCtorEq, or_false] at hq
        subst hq
        exact h4 p (Or.inr rfl)

theorem inv_exec (mode : Mode) (acts : List Act) : Inv (exec (init mode) acts) := by
  have key : ∀ (acts : List Act) (s : State), Inv s → Inv (exec s acts) := by
    intro acts
    induction acts with
    | nil => intro s h; exact h
    | cons a acts ih => intro s h; exact ih _ (inv_step s h a)
  exact key acts _ (inv_init mode)

/-! ### Accounting -/

/-- What is accounted for: transmitted, waiting in the internal buffer, waiting at the input. -/
def account (s : State) : List Bytes := s.wire ++ untransmitted s ++ (untaken s).map (datagram s.mode)

theorem mode_step (s : State) (a : Act) : (step s a).mode = s.mode := by
  unfold step
  by_cases ht : s.terminated = true
  · rw [if_pos ht]
  rw [if_neg ht]
  cases a with
  | enqueue m => rfl
  | transmit ok => simp only [transmit]; repeat' split <;> try rfl
  | handler => simp only [handlerStep, startSend]; repeat' split <;> try rfl
  | audio ok => simp only [audioStep, startSend]; repeat' split <;> try rfl

theorem mode_exec (s : State) (acts : List Act) : (exec s acts).mode = s.mode := by
  induction acts generalizing s with
  | nil => rfl
  | cons a acts ih => exact (ih (step s a)).trans (mode_step s a)

theorem account_step (s : State) (h : Inv s) (ht : s.terminated = false) (a : Act) :
    account (step s a) = account s ++ (messages [a]).map (datagram s.mode) := by
  unfold step
  rw [if_neg (by simp [ht])]
  obtain ⟨mode, queue, internal, send, hpc, apc, lock, wire, bad, terminated, thrown⟩ := s
  obtain ⟨h1, h2, h3, h4, h5, h6, h7, h8, h9, h10, h11⟩ := h
  simp only at *
  subst h11
  cases a with
  | enqueue m =>
    simp only [account, untransmitted, untaken, messages]
    cases apc with
    | syncSent =>
      have := h8 (Or.inl rfl)
      simp [List.tail_append_of_ne_nil this]
    | copied p =>
      have := h8 (Or.inr ⟨p, rfl⟩)
      simp [List.tail_append_of_ne_nil this]
    | idle => simp
    | syncLoop => simp
    | want => simp
    | loop p => simp
  | transmit ok =>
    simp only [transmit, messages, List.map_nil, List.append_nil]
    cases send with
    | started =>
      have hh : ∀ n, hpc ≠ .inside n := by
        intro n hn; have := (h5 n hn).1; simp at this
      cases internal with
      | nil => simp [account, untransmitted, untaken]
      | cons m rest =>
        simp only
        split_ifs
        · simp [account, untransmitted, untaken, hh]
        · simp [account, untransmitted, untaken, hh]
    | none => rfl
    | completed n => rfl
    | failed => rfl
  | handler =>
    simp only [messages, List.map_nil, List.append_nil]
    by_cases hm : mode = .synchronous
    · rw [if_pos hm]
    rw [if_neg hm]
    simp only [handlerStep]
    cases hpc with
    | idle =>
      cases send with
      | none => rfl
      | started => rfl
      | failed => rfl
      | completed n =>
        simp only
        split_ifs
        · simp [account, untransmitted, untaken]
        · rfl
    | inside n =>
      obtain ⟨rfl, m, rest, rfl, hlen⟩ := h5 n rfl
      simp only
      rw [if_neg (by simpa using hlen)]
      simp [account, untransmitted, untaken]
    | popped =>
      have hs := h6 rfl
      subst hs
      simp only
      split_ifs
      · simp [account, untransmitted, untaken, startSend]
      · simp [account, untransmitted, untaken]
  | audio ok =>
    simp only [messages, List.map_nil, List.append_nil, audioStep]
    cases apc with
    | idle =>
      cases mode <;> simp [account, untransmitted, untaken]
    | syncLoop =>
      have hsync : mode = .synchronous := by
        cases mode with
        | synchronous => rfl
        | asynchronous => simpa using (h10 rfl).1
      subst hsync
      obtain ⟨rfl, rfl, rfl, -⟩ := h9 rfl
      cases queue with
      | nil => simp [account, untransmitted, untaken]
      | cons m rest =>
        simp only
        split_ifs
        · simp [account, untransmitted, untaken, datagram]
        · simp [account, untransmitted, untaken]
    | syncSent => simp [account, untransmitted, untaken]
    | want =>
      simp only
      split_ifs
      · simp [account, untransmitted, untaken]
      · rfl
    | loop p =>
      have hasync : mode = .asynchronous := by
        cases mode with
        | asynchronous => rfl
        | synchronous => have := (h9 rfl).2.2.2; simp at this
      subst hasync
      have hl : lock = some .audio := h2.2 ⟨p, Or.inl rfl⟩
      subst hl
      have hidle : hpc = .idle := by
        by_contra hne
        have := h1.2 hne
        simp at this
      subst hidle
      cases queue with
      | nil =>
        obtain ⟨ha, -⟩ := h4 p (Or.inl rfl)
        simp only
        split_ifs with hc
        · obtain ⟨hi, rfl⟩ := hc
          have hs : send = .none := by
            by_contra hne; simpa using ha.1 hne
          subst hs
          simp [account, untransmitted, untaken, startSend]
        · simp [account, untransmitted, untaken]
      | cons m rest =>
        by_cases hc : ∃ n, send = .completed n
        · obtain ⟨n, hn⟩ := hc
          obtain ⟨m', rest', e, -⟩ := h7 n hn
          subst hn
          simp [account, untransmitted, untaken, datagram, e]
        · simp [account, untransmitted, untaken, datagram, hc]
    | copied p => simp [account, untransmitted, untaken]

theorem step_terminated (s : State) (a : Act) (h : s.terminated = true) : step s a = s := by
  unfold step; rw [if_pos h]

theorem exec_terminated (s : State) (acts : List Act) (h : s.terminated = true) : exec s acts = s := by
  induction acts with
  | nil => rfl
  | cons a acts ih => show exec (step s a) acts = s; rw [step_terminated s a h]; exact ih

theorem messages_cons (a : Act) (acts : List Act) : messages (a :: acts) = messages [a] ++ messages acts := by
  cases a <;> simp [messages]

theorem messages_append (xs ys : List Act) : messages (xs ++ ys) = messages xs ++ messages ys := by
  induction xs with
  | nil => rfl
  | cons a xs ih => rw [List.cons_append, messages_cons, ih, messages_cons a xs, List.append_assoc]

theorem account_exec (s : State) (h : Inv s) (acts : List Act) :
    (exec s acts).terminated = false →
      account (exec s acts) = account s ++ (messages acts).map (datagram s.mode) := by
  induction acts generalizing s with
  | nil => intro _; simp [exec, messages]
  | cons a acts ih =>
    intro ht
    have hts : s.terminated = false := by
      cases hs : s.terminated with
      | false => rfl
      | true => rw [exec_terminated s _ hs] at ht; rw [hs] at ht; exact ht
    have e := ih (step s a) (inv_step s h a) ht
    show account (exec (step s a) acts) = _
    rw [e, account_step s h hts a, mode_step, messages_cons a acts, List.map_append, List.append_assoc]

theorem account_exec_prefix (s : State) (h : Inv s) (acts : List Act) :
    account (exec s acts) <+: account s ++ (messages acts).map (datagram s.mode) := by
  induction acts generalizing s with
  | nil => simp [exec, messages]
  | cons a acts ih =>
    cases hs : s.terminated with
    | true =>
      rw [exec_terminated s _ hs]
      exact List.prefix_append _ _
    | false =>
      have e := ih (step s a) (inv_step s h a)
      show account (exec (step s a) acts) <+: _
      rw [account_step s h hs a, mode_step] at e
      rw [messages_cons a acts, List.map_append, ← List.append_assoc]
      exact e

/-! ### Absence of failures -/

/-- Everything in the state fits, and nothing has failed. -/
structure Fine (s : State) : Prop where
  queue : ∀ m ∈ s.queue, m.length ≤ maxDatagram
  internal : ∀ m ∈ s.internal, m.length ≤ maxDatagram
  send : s.send ≠ .failed
  alive : s.terminated = false
  silent : s.thrown = 0

theorem cString_length (m : Bytes) : (cString m).length ≤ m.length :=
  (List.takeWhile_prefix _).length_le

theorem fine_step (s : State) (hi : Inv s) (h : Fine s) (a : Act) (hok : a ≠ .transmit false ∧ a ≠ .audio false)
    (hfit : ∀ m ∈ messages [a], m.length ≤ maxDatagram) : Fine (step s a) := by
  obtain ⟨f1, f2, f3, f4, f5⟩ := h
  unfold step
  rw [if_neg (by simp [f4])]
  cases a with
  | enqueue m =>
    refine ⟨?_, f2, f3, f4, f5⟩
    intro x hx
    rcases List.mem_append.1 hx with hx | hx
    · exact f1 x hx
    · exact hfit x (by simpa [messages] using hx)
  | transmit ok =>
    have hok : ok = true := by cases ok <;> simp_all
    subst hok
    simp only [transmit]
    split
    · split
      · exact ⟨f1, f2, f3, f4, f5⟩
      · rename_i m rest e
        rw [if_pos (by simpa using f2 m (by simp [e]))]
        exact ⟨f1, f2, by simp, f4, f5⟩
    · exact ⟨f1, f2, f3, f4, f5⟩
  | handler =>
    simp only
    split_ifs
    · exact ⟨f1, f2, f3, f4, f5⟩
    · simp only [handlerStep]
      split
      · split
        · rename_i e; exact absurd e f3
        · split_ifs
          · exact ⟨f1, f2, by simp, f4, f5⟩
          · exact ⟨f1, f2, f3, f4, f5⟩
        · exact ⟨f1, f2, f3, f4, f5⟩
      · rename_i n e
        obtain ⟨-, m, rest, e', hl⟩ := hi.inside n e
        split
        · exact ⟨f1, f2, f3, f4, f5⟩
        · rename_i m' rest' e''
          rw [e'] at e''
          obtain ⟨rfl, rfl⟩ := List.cons.inj e''
          rw [if_neg (by simpa using hl)]
          exact ⟨f1, fun x hx => f2 x (by rw [e']; exact List.mem_cons_of_mem _ hx), f3, f4, f5⟩
      · split_ifs
        · exact ⟨f1, f2, by simp [startSend], f4, f5⟩
        · exact ⟨f1, f2, f3, f4, f5⟩
  | audio ok =>
    have hok : ok = true := by cases ok <;> simp_all
    subst hok
    simp only [audioStep]
    split
    · exact ⟨f1, f2, f3, f4, f5⟩
    · split
      · exact ⟨f1, f2, f3, f4, f5⟩
      · rename_i m rest e
        rw [if_pos (by simpa using f1 m (by simp [e]))]
        exact ⟨f1, f2, f3, f4, f5⟩
    · exact ⟨fun x hx => f1 x (List.mem_of_mem_tail hx), f2, f3, f4, f5⟩
    · split_ifs
      · exact ⟨f1, f2, f3, f4, f5⟩
      · exact ⟨f1, f2, f3, f4, f5⟩
    · split
      · rename_i m rest e
        refine ⟨f1, ?_, f3, f4, f5⟩
        intro x hx
        rcases List.mem_append.1 hx with hx | hx
        · exact f2 x hx
        · rw [List.mem_singleton] at hx
          subst hx
          exact Nat.le_trans (cString_length m) (f1 m (by simp [e]))
      · split_ifs
        · exact ⟨f1, f2, by simp [startSend], f4, f5⟩
        · exact ⟨f1, f2, f3, f4, f5⟩
    · exact ⟨fun x hx => f1 x (List.mem_of_mem_tail hx), f2, f3, f4, f5⟩

theorem fine_exec (s : State) (hi : Inv s) (h : Fine s) (acts : List Act) (hok : NoFailure acts) (hfit : Fit acts) :
    Fine (exec s acts) := by
  induction acts generalizing s with
  | nil => exact h
  | cons a acts ih =>
    refine ih (step s a) (inv_step s hi a) (fine_step s hi h a (hok a (by simp)) ?_) (fun x hx => hok x (by simp [hx])) ?_
    · intro m hm
      exact hfit m (by rw [messages_cons]; exact List.mem_append_left _ hm)
    · intro m hm
      exact hfit m (by rw [messages_cons]; exact List.mem_append_right _ hm)

theorem fine_init (mode : Mode) : Fine (init mode) := by
  constructor <;> simp [init]

/-! ### Progress -/

/-- Weight of the position of the audio thread. -/
def aWeight : APc → List Bytes → Nat
  | .idle, [] => 0
  | .idle, _ :: _ => 8
  | .syncLoop, _ => 3
  | .syncSent, _ => 4
  | .want, _ => 7
  | .loop _, _ => 5
  | .copied _, _ => 6

/-- Weight of the send operation. -/
def sWeight : Send → Nat
  | .none => 0
  | .started => 4
  | .completed _ => 2
  | .failed => 0

/-- Weight of the position of the handler. -/
def hWeight : HPc → Nat
  | .idle => 0
  | .inside _ => 1
  | .popped => 5

/-- Remaining work. -/
def work (s : State) : Nat :=
  20 * (untaken s).length + 10 * s.internal.length + sWeight s.send + hWeight s.hpc + aWeight s.apc s.queue

theorem work_step (s : State) (hi : Inv s) (h : Fine s) (hq : ¬ Quiet s) :
    ∃ a, (a ≠ .transmit false ∧ a ≠ .audio false) ∧ messages [a] = [] ∧ work (step s a) < work s := by
  obtain ⟨f1, f2, f3, f4, -⟩ := h
  obtain ⟨mode, queue, internal, send, hpc, apc, lock, wire, bad, terminated, thrown⟩ := s
  obtain ⟨h1, h2, h3, h4, h5, h6, h7, h8, h9, h10, h11⟩ := hi
  simp only [Quiet] at *
  subst h11 f4
  have audio : ∀ (hidle : hpc = .idle) (hact : apc ≠ .idle ∨ queue ≠ []) (hlock : apc = .want → lock = none),
      ∃ a : Act, (a ≠ .transmit false ∧ a ≠ .audio false) ∧ messages [a] = [] ∧
        work (step ⟨mode, queue, internal, send, hpc, apc, lock, wire, false, false, thrown⟩ a) <
          work ⟨mode, queue, internal, send, hpc, apc, lock, wire, false, false, thrown⟩ := by
    intro hidle hact hlock
    refine ⟨.audio true, by simp, rfl, ?_⟩
    simp only [step, Bool.false_eq_true, if_false, audioStep]
    cases apc with
    | idle =>
      cases queue with
      | nil => simp at hact
      | cons m rest => cases mode <;> simp [work, untaken, aWeight]
    | syncLoop =>
      cases queue with
      | nil => simp [work, untaken, aWeight]
      | cons m rest =>
        simp only
        rw [if_pos (by simpa using f1 m (by simp))]
        simp [work, untaken, aWeight]
        omega
    | syncSent => simp [work, untaken, aWeight]
    | want =>
      simp only
      rw [if_pos (hlock rfl)]
      simp [work, untaken, aWeight]
    | loop p =>
      cases queue with
      | nil =>
        obtain ⟨ha, -⟩ := h4 p (Or.inl rfl)
        simp only
        split_ifs with hc
        · obtain ⟨hi, rfl⟩ := hc
          have hs : send = .none := by
            by_contra hne; simpa using ha.1 hne
          subst hs
          simp [work, untaken, aWeight, startSend, sWeight]
          omega
        · simp [work, untaken, aWeight]
      | cons m rest =>
        simp [work, untaken, aWeight]
        omega
    | copied p => simp [work, untaken, aWeight]
  by_cases hidle : hpc = .idle
  · cases send with
    | failed => exact absurd rfl f3
    | started =>
      refine ⟨.transmit true, by simp, rfl, ?_⟩
      simp only [step, Bool.false_eq_true, if_false, transmit]
      cases internal with
      | nil =>
        exfalso
        cases hl : lock with
        | none => simpa using h3 hl
        | some t =>
          cases t with
          | audio =>
            obtain ⟨p, hp⟩ := h2.1 hl
            have := h4 p hp
            simp at this
          | handler => exact h1.1 hl hidle
      | cons m rest =>
        simp only
        rw [if_pos (by simpa using f2 m (by simp))]
        simp [work, untaken, sWeight]
    | completed n =>
      have hasync : mode ≠ .synchronous := by
        intro hm; have := (h9 hm).2.1; simp at this
      cases hl : lock with
      | none =>
        refine ⟨.handler, by simp, rfl, ?_⟩
        simp [step, handlerStep, hidle, hasync, work, untaken, sWeight, hWeight]
      | some t =>
        cases t with
        | handler => exact absurd hidle (h1.1 hl)
        | audio =>
          obtain ⟨p, hp⟩ := h2.1 hl
          have := audio hidle (by rcases hp with rfl | rfl <;> simp) (by rcases hp with rfl | rfl <;> simp)
          simpa only [hl] using this
    | none =>
      refine audio hidle ?_ ?_
      · by_contra hc
        push Not at hc
        exact hq ⟨hc.1, hc.2, rfl, hidle⟩
      · intro hw
        cases hl : lock with
        | none => rfl
        | some t =>
          cases t with
          | handler => exact absurd hidle (h1.1 hl)
          | audio => obtain ⟨p, hp⟩ := h2.1 hl; rw [hw] at hp; simp at hp
  · have hasync : mode ≠ .synchronous := by
      intro hm; exact hidle (h9 hm).2.2.1
    refine ⟨.handler, by simp, rfl, ?_⟩
    cases hpc with
    | idle => exact absurd rfl hidle
    | inside n =>
      obtain ⟨rfl, m, rest, rfl, hlen⟩ := h5 n rfl
      simp [step, handlerStep, hasync, hlen, work, untaken, hWeight]
      omega
    | popped =>
      have hs := h6 rfl
      subst hs
      simp only [step, Bool.false_eq_true, if_false, hasync, handlerStep]
      split_ifs
      · simp [work, untaken, startSend, sWeight, hWeight]
      · simp [work, untaken, sWeight, hWeight]

theorem drain (n : Nat) : ∀ s : State, Inv s → Fine s → work s ≤ n →
    ∃ more, NoFailure more ∧ messages more = [] ∧ Quiet (exec s more) := by
  induction n with
  | zero =>
    intro s hi hf hw
    by_cases hq : Quiet s
    · exact ⟨[], by simp [NoFailure], rfl, hq⟩
    · obtain ⟨a, -, -, hlt⟩ := work_step s hi hf hq
      omega
  | succ n ih =>
    intro s hi hf hw
    by_cases hq : Quiet s
    · exact ⟨[], by simp [NoFailure], rfl, hq⟩
    · obtain ⟨a, hok, hm, hlt⟩ := work_step s hi hf hq
      obtain ⟨more, h1, h2, h3⟩ := ih (step s a) (inv_step s hi a)
        (fine_step s hi hf a hok (by simp [hm])) (by omega)
      refine ⟨a :: more, ?_, ?_, h3⟩
      · intro x hx
        rcases List.mem_cons.1 hx with rfl | hx
        · exact hok
        · exact h1 x hx
      · rw [messages_cons, hm, h2]; rfl

theorem quiet_internal (s : State) (hi : Inv s) (hq : Quiet s) : s.internal = [] := by
  obtain ⟨a, b, c, d⟩ := hq
  have hl : s.lock = none := by
    cases hl : s.lock with
    | none => rfl
    | some t =>
      cases t with
      | handler => exact absurd d (hi.lockH.1 hl)
      | audio => obtain ⟨p, hp⟩ := hi.lockA.1 hl; rw [a] at hp; simp at hp
  by_contra hne
  exact (hi.active hl).2 hne c

theorem account_quiet (s : State) (hi : Inv s) (hq : Quiet s) : account s = s.wire := by
  have := quiet_internal s hi hq
  obtain ⟨a, b, c, d⟩ := hq
  simp [account, untransmitted, untaken, a, b, c, d, this]

theorem exec_append (s : State) (xs ys : List Act) : exec s (xs ++ ys) = exec (exec s xs) ys := by
  simp [exec, List.foldl_append]

theorem cString_eq (m : Bytes) : cString m = m ↔ (0 : UInt8) ∉ m := by
  induction m with
  | nil => simp [cString]
  | cons x m ih =>
    by_cases hx : x = 0
    · subst hx; simp [cString]
    · have hx' : ¬ 0 = x := fun e => hx e.symm
      simp only [cString, ne_eq, decide_not] at ih
      simp [cString, hx, hx', ih]

end Visr.UdpSender
