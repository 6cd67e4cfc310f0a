import Verif.UdpSender.Lemmas

/-!
# C71: messages are transmitted exactly once and in order
-/

namespace Visr.UdpSender

/-! ### The property -/

/-- **C71 (no invented, repeated or reordered datagrams).** For every mode and every schedule (with any failures of the
network), the datagrams on the network are the datagrams of the first messages, each one once and in the order in which
the messages were sent to the component. -/
theorem transmitted_prefix (mode : Mode) (acts : List Act) :
    (exec (init mode) acts).wire <+: (messages acts).map (datagram mode) := by
  have h := account_exec_prefix (init mode) (inv_init mode) acts
  have e : account (init mode) = [] := by simp [account, untransmitted, untaken, init]
  rw [e, List.nil_append] at h
  refine List.IsPrefix.trans ?_ h
  unfold account
  rw [List.append_assoc]
  exact List.prefix_append _ _

/-- **C71 (content).** In the synchronous mode the datagrams are the messages. In the asynchronous mode this holds for
messages without zero bytes. Missing: messages with zero bytes, for which it is false (`zero_byte_truncates`). -/
theorem transmitted_messages_partial (mode : Mode) (acts : List Act)
    (h : mode = .asynchronous → ∀ m ∈ messages acts, (0 : UInt8) ∉ m) :
    (exec (init mode) acts).wire <+: messages acts := by
  have hp := transmitted_prefix mode acts
  have : (messages acts).map (datagram mode) = messages acts := by
    cases mode with
    | synchronous => exact List.map_id _
    | asynchronous =>
      conv_rhs => rw [← List.map_id (messages acts)]
      apply List.map_congr_left
      intro m hm
      exact (cString_eq m).2 (h rfl m hm)
  rwa [this] at hp

/-- **C71 (no undefined behaviour).** In no schedule do the two threads access the internal buffer at the same time, is
a send operation started while another one is in progress, or does an operation refer to a message that has been
removed. -/
theorem no_undefined_behaviour (mode : Mode) (acts : List Act) : (exec (init mode) acts).bad = false :=
  (inv_exec mode acts).good

/-- **C71 (no termination without failure).** If the network does not fail and the messages fit into datagrams, then
neither is the program terminated nor does `process()` throw. -/
theorem no_failure_no_termination (mode : Mode) (acts : List Act) (hok : NoFailure acts) (hfit : Fit acts) :
    (exec (init mode) acts).terminated = false ∧ (exec (init mode) acts).thrown = 0 :=
  have h := fine_exec _ (inv_init mode) (fine_init mode) acts hok hfit
  ⟨h.alive, h.silent⟩

/-- **C71 (nothing is forgotten).** Whenever no call of `process()`, no send operation and no handler is in progress and
the input is empty, everything has been transmitted. -/
theorem quiet_transmitted (mode : Mode) (acts : List Act) (ht : (exec (init mode) acts).terminated = false)
    (hq : Quiet (exec (init mode) acts)) :
    (exec (init mode) acts).wire = (messages acts).map (datagram mode) := by
  have h := account_exec (init mode) (inv_init mode) acts ht
  have e : account (init mode) = [] := by simp [account, untransmitted, untaken, init]
  rw [account_quiet _ (inv_exec mode acts) hq, e, List.nil_append] at h
  exact h

/-- **C71 (progress).** After every schedule without failures, a continuation without failures and without new messages
leads to a state in which all messages have been transmitted: there is no deadlock and no lost wake-up. -/
theorem all_transmittable (mode : Mode) (acts : List Act) (hok : NoFailure acts) (hfit : Fit acts) :
    ∃ more, NoFailure more ∧ messages more = [] ∧
      (exec (init mode) (acts ++ more)).wire = (messages acts).map (datagram mode) := by
  have hf := fine_exec _ (inv_init mode) (fine_init mode) acts hok hfit
  obtain ⟨more, h1, h2, h3⟩ := drain _ _ (inv_exec mode acts) hf (Nat.le_refl _)
  refine ⟨more, h1, h2, ?_⟩
  have hms : messages (acts ++ more) = messages acts := by rw [messages_append, h2, List.append_nil]
  have hok' : NoFailure (acts ++ more) := by
    intro a ha
    rcases List.mem_append.1 ha with ha | ha
    · exact hok a ha
    · exact h1 a ha
  have ht := no_failure_no_termination mode (acts ++ more) hok' (by intro m hm; rw [hms] at hm; exact hfit m hm)
  rw [quiet_transmitted mode (acts ++ more) ht.1 (by rw [exec_append]; exact h3), hms]

/-- The schedule of the examples: two messages, processed in between, the second while the first is in flight. -/
def exampleSchedule : List Act :=
  [.enqueue [1, 2], .audio true, .audio true, .audio true, .audio true, .audio true, .enqueue [3], .audio true,
    .transmit true, .audio true, .audio true, .handler, .audio true, .audio true, .handler, .handler, .handler,
    .transmit true]

example : NoFailure exampleSchedule ∧ Fit exampleSchedule ∧
    (exec (init .asynchronous) exampleSchedule).wire = [[1, 2], [3]] ∧
    messages exampleSchedule = [[1, 2], [3]] ∧
    (exec (init .asynchronous) (exampleSchedule ++ [.handler, .handler, .handler])).terminated = false ∧
    Quiet (exec (init .asynchronous) (exampleSchedule ++ [.handler, .handler, .handler])) := by
  unfold NoFailure Fit Quiet
  decide

/-! ### Where the property is false -/

/-- In the asynchronous mode a message with a zero byte is cut off there: what is transmitted for it is not the message.
Every OSC message contains zero bytes. -/
theorem zero_byte_truncates (m : Bytes) : datagram .asynchronous m = m ↔ (0 : UInt8) ∉ m :=
  cString_eq m

/-- The OSC message `/a` with the type tag string `,` is transmitted as two bytes. -/
theorem osc_message_truncated :
    (exec (init .asynchronous) [.enqueue [47, 97, 0, 0, 44, 0, 0, 0], .audio true, .audio true, .audio true, .audio true,
      .audio true, .transmit true]).wire = [[47, 97]] := by
  decide

/-- A failed transmission in the asynchronous mode terminates the program: the exception of the handler leaves the
network thread. -/
theorem failed_transmission_terminates (acts : List Act) (m : Bytes) (rest : List Bytes) (ok : Bool)
    (ht : (exec (init .asynchronous) acts).terminated = false)
    (hs : (exec (init .asynchronous) acts).send = .started)
    (hi : (exec (init .asynchronous) acts).internal = m :: rest)
    (hf : ok = false ∨ maxDatagram < m.length) :
    (exec (init .asynchronous) (acts ++ [.transmit ok, .handler])).terminated = true := by
  have hinv := inv_exec .asynchronous acts
  have hmode := mode_exec (init .asynchronous) acts
  have hidle : (exec (init .asynchronous) acts).hpc = .idle := by
    cases hh : (exec (init .asynchronous) acts).hpc with
    | idle => rfl
    | inside n => have := (hinv.inside n hh).1; rw [hs] at this; simp at this
    | popped => have := hinv.popped hh; rw [hs] at this; simp at this
  rw [exec_append]
  generalize exec (init .asynchronous) acts = s at *
  obtain ⟨mode, queue, internal, send, hpc, apc, lock, wire, bad, terminated, thrown⟩ := s
  simp only at *
  subst hs hi hidle ht
  have hmode' : mode = .asynchronous := hmode
  subst hmode'
  have hc : ¬ (ok = true ∧ m.length ≤ maxDatagram) := by
    rintro ⟨h1, h2⟩
    rcases hf with h | h
    · rw [h] at h1; simp at h1
    · omega
  simp only [exec, List.foldl, step, Bool.false_eq_true, if_false, transmit, hc, handlerStep, reduceCtorEq]

/-- The blocked state of the synchronous mode: the first message does not fit into a datagram. -/
def Blocked (s : State) : Prop :=
  s.mode = .synchronous ∧ s.terminated = false ∧ s.send = .none ∧ (s.apc = .idle ∨ s.apc = .syncLoop) ∧
    ∃ m rest, s.queue = m :: rest ∧ maxDatagram < m.length

theorem blocked_step (s : State) (h : Blocked s) (a : Act) : Blocked (step s a) ∧ (step s a).wire = s.wire := by
  obtain ⟨mode, queue, internal, send, hpc, apc, lock, wire, bad, terminated, thrown⟩ := s
  obtain ⟨rfl, rfl, rfl, ha, m, rest, hq, hm⟩ := h
  simp only at ha hq
  subst hq
  cases a with
  | enqueue x => exact ⟨⟨rfl, rfl, rfl, ha, m, rest ++ [x], rfl, hm⟩, rfl⟩
  | transmit ok => exact ⟨⟨rfl, rfl, rfl, ha, m, rest, rfl, hm⟩, rfl⟩
  | handler => exact ⟨⟨rfl, rfl, rfl, ha, m, rest, rfl, hm⟩, rfl⟩
  | audio ok =>
    rcases ha with rfl | rfl
    · exact ⟨⟨rfl, rfl, rfl, Or.inr rfl, m, rest, rfl, hm⟩, rfl⟩
    · have hc : ¬ (ok = true ∧ m.length ≤ maxDatagram) := by rintro ⟨-, h2⟩; omega
      have e : step ⟨.synchronous, m :: rest, internal, .none, hpc, .syncLoop, lock, wire, bad, false, thrown⟩ (.audio ok) =
          ⟨.synchronous, m :: rest, internal, .none, hpc, .idle, lock, wire, bad, false, thrown + 1⟩ := by
        simp only [step, Bool.false_eq_true, if_false, audioStep]
        rw [if_neg hc]
      rw [e]
      exact ⟨⟨rfl, rfl, rfl, Or.inl rfl, m, rest, rfl, hm⟩, rfl⟩

/-- In the synchronous mode a message that does not fit into a datagram stays at the front of the input: from then on
nothing is transmitted any more, however often `process()` is called. -/
theorem oversized_message_blocks (s : State) (h : Blocked s) (acts : List Act) : (exec s acts).wire = s.wire := by
  induction acts generalizing s with
  | nil => rfl
  | cons a acts ih =>
    obtain ⟨h1, h2⟩ := blocked_step s h a
    exact (ih (step s a) h1).trans h2

/-- Such a state is reached by sending such a message. -/
theorem oversized_message_reaches (m : Bytes) (hm : maxDatagram < m.length) :
    Blocked (exec (init .synchronous) [.enqueue m]) :=
  ⟨rfl, rfl, rfl, Or.inl rfl, m, [], rfl, hm⟩

/-- Every call of `process()` in a blocked state ends with an exception. -/
theorem blocked_process_throws (s : State) (h : Blocked s) (hidle : s.apc = .idle) (ok : Bool) :
    (exec s [.audio true, .audio ok]).thrown = s.thrown + 1 ∧ (exec s [.audio true, .audio ok]).apc = .idle := by
  obtain ⟨mode, queue, internal, send, hpc, apc, lock, wire, bad, terminated, thrown⟩ := s
  obtain ⟨rfl, rfl, rfl, ha, m, rest, hq, hm⟩ := h
  simp only at ha hq hidle
  subst hq hidle
  have hc : ¬ (ok = true ∧ m.length ≤ maxDatagram) := by rintro ⟨-, h2⟩; omega
  simp [exec, step, audioStep, hc]

example : maxDatagram < (List.replicate 70000 (1 : UInt8)).length := by
  rw [List.length_replicate]; decide

end Visr.UdpSender
