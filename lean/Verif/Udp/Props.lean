import Verif.Udp.Model
import Mathlib.Tactic.Common
import Mathlib.Tactic.SplitIfs

/-!
# C34: datagrams are delivered exactly once and in order
-/

namespace Visr.Udp

open Visr

variable {β : Type}

/-! ### Specification -/

/-- The datagrams that arrive in a schedule, in order. -/
def arrivals : List (Act β) → List (List β)
  | [] => []
  | .arrive d :: acts => d :: arrivals acts
  | _ :: acts => arrivals acts

/-- The datagrams that have arrived but for which the handler has not yet run. -/
def notHandled (s : State β) : List (List β) :=
  (match s.hpc with
    | .ready _ => [s.buffer]
    | .inside _ => [s.buffer]
    | _ => []) ++ s.sock

/-- Messages handed over by the handler and not yet passed on. -/
def waiting (s : State β) : List (List β) :=
  if s.apc = .copied then s.internal.tail else s.internal

/-! ### The invariant -/

/-- The invariant of all schedules without receive errors. -/
structure Inv (s : State β) : Prop where
  lockH : s.lock = some .handler ↔ (s.hpc = .pushed ∨ ∃ e, s.hpc = .inside e)
  lockA : s.lock = some .audio ↔ (s.apc = .loop ∨ s.apc = .copied)
  poll : s.mode = .synchronous → s.hpc ≠ .armed → (∀ e, s.hpc ≠ .ready e) → s.apc = .polling
  copied : s.apc = .copied → s.internal ≠ []
  race : s.race = false

theorem inv_init (mode : Mode) : Inv (init mode : State β) := by
  constructor <;> simp [init]

theorem inv_step (s : State β) (h : Inv s) (a : Act β) : Inv (step s a) := by
  obtain ⟨h1, h2, h3, h4, h5⟩ := h
  cases a with
  | arrive d => exact ⟨h1, h2, h3, h4, h5⟩
  | complete =>
    simp only [step]
    split
    · rename_i d r hh hs
      refine ⟨?_, h2, ?_, h4, h5⟩
      · simp [hh] at h1; simp [h1]
      · intro _ _ h; exact absurd rfl (h false)
    · exact ⟨h1, h2, h3, h4, h5⟩
  | fail =>
    simp only [step]
    split
    · rename_i hh
      refine ⟨?_, h2, ?_, h4, h5⟩
      · simp [hh] at h1; simp [h1]
      · intro _ _ h; exact absurd rfl (h true)
    · exact ⟨h1, h2, h3, h4, h5⟩
  | handler =>
    simp only [step]
    split_ifs with hm
    · exact ⟨h1, h2, h3, h4, h5⟩
    · have hm' : s.mode = .synchronous → s.apc = .polling := by
        intro e; by_contra h; exact hm ⟨e, h⟩
      simp only [handlerStep]
      split
      · exact ⟨h1, h2, h3, h4, h5⟩
      · rename_i err hh
        split_ifs with hl
        · refine ⟨by simp, ?_, fun e _ _ => hm' e, h4, h5⟩
          rw [hl] at h2
          simpa using h2
        · exact ⟨h1, h2, h3, h4, h5⟩
      · rename_i err hh
        have hl : s.lock = some .handler := h1.mpr (.inr ⟨err, hh⟩)
        have ha : ¬ (s.apc = .loop ∨ s.apc = .copied) := by rw [← h2, hl]; simp
        refine ⟨by simp [hl], h2, fun e _ _ => hm' e, ?_, ?_⟩
        · intro hc; exact absurd (.inr hc) ha
        · rw [h5]
          cases hq : s.apc <;> simp_all [APc.accesses]
      · rename_i hh
        have hl : s.lock = some .handler := h1.mpr (.inl hh)
        refine ⟨by simp, ?_, fun e _ _ => hm' e, h4, h5⟩
        rw [hl] at h2
        simpa using h2
      · rename_i hh
        refine ⟨?_, h2, fun _ h _ => absurd rfl h, h4, h5⟩
        rw [hh] at h1; simpa using h1
  | audio =>
    simp only [step, audioStep]
    split
    · rename_i ha
      rw [ha] at h2
      refine ⟨h1, ?_, ?_, ?_, h5⟩
      · simp only
        split_ifs <;> simpa using h2
      · intro e _ _; simp only [] at e; simp [e]
      · intro h; simp only at h; split_ifs at h
    · rename_i ha
      rw [ha] at h2
      split
      · rename_i hh
        exact ⟨h1, by simpa using h2, fun _ h _ => absurd hh h, by simp, h5⟩
      · rename_i e hh
        exact ⟨h1, by simpa using h2, fun _ _ h => absurd hh (h e), by simp, h5⟩
      · exact ⟨h1, by rw [ha]; exact h2, h3, h4, h5⟩
    · rename_i ha
      split_ifs with hl
      · rw [hl] at h1
        refine ⟨?_, by simp, ?_, by simp, h5⟩
        · simpa using h1
        · intro e ha' hr
          have := h3 e ha' hr
          rw [ha] at this; simp at this
      · exact ⟨h1, h2, h3, h4, h5⟩
    · rename_i ha
      have hl : s.lock = some .audio := h2.mpr (.inl ha)
      have hh : ¬ (s.hpc = .pushed ∨ ∃ e, s.hpc = .inside e) := by rw [← h1, hl]; simp
      have hacc : s.hpc.accesses = false := by
        cases hq : s.hpc <;> simp_all [HPc.accesses]
      have hp : s.mode = .synchronous → s.hpc ≠ .armed → (∀ e, s.hpc ≠ .ready e) → False := by
        intro e ha' hr
        have := h3 e ha' hr
        rw [ha] at this; simp at this
      split
      · exact ⟨by simpa using hh, by simp, fun a b c => (hp a b c).elim, by simp, by simp [h5, hacc]⟩
      · rename_i m r hi
        exact ⟨h1, by simp [hl], fun a b c => (hp a b c).elim, by simp [hi], by simp [h5, hacc]⟩
    · rename_i ha
      have hl : s.lock = some .audio := h2.mpr (.inr ha)
      have hh : ¬ (s.hpc = .pushed ∨ ∃ e, s.hpc = .inside e) := by rw [← h1, hl]; simp
      have hacc : s.hpc.accesses = false := by
        cases hq : s.hpc <;> simp_all [HPc.accesses]
      have hp : s.mode = .synchronous → s.hpc ≠ .armed → (∀ e, s.hpc ≠ .ready e) → False := by
        intro e ha' hr
        have := h3 e ha' hr
        rw [ha] at this; simp at this
      exact ⟨h1, by simp [hl], fun a b c => (hp a b c).elim, by simp, by simp [h5, hacc]⟩

theorem inv_exec (mode : Mode) (acts : List (Act β)) : Inv (exec (init mode) acts) := by
  have key : ∀ (acts : List (Act β)) (s : State β), Inv s → Inv (exec s acts) := by
    intro acts
    induction acts with
    | nil => intro s h; exact h
    | cons a acts ih => intro s h; exact ih _ (inv_step s h a)
  exact key acts _ (inv_init mode)

/-! ### Flow of the datagrams -/

/-- Everything that was received, in order: passed on, waiting, not yet handled. -/
def flow (s : State β) : List (List β) := s.out ++ waiting s ++ notHandled s

/-- No receive error is under way. -/
def NoErr (s : State β) : Prop := s.hpc ≠ .ready true ∧ s.hpc ≠ .inside true

theorem flow_step (s : State β) (h : Inv s) (he : NoErr s) (a : Act β) (ha : ∀ e, a = e → (match e with | .fail => False | _ => True))
    (hs : ∀ d ∈ s.sock, d.length ≤ cMaxMessageLength) :
    flow (step s a) = flow s ++ (match a with | .arrive d => [d] | _ => []) ∧ NoErr (step s a) := by
  have hst := inv_step s h a
  cases a with
  | arrive d =>
    refine ⟨?_, he⟩
    simp only [flow, step, waiting, notHandled, List.append_assoc]
    rfl
  | complete =>
    simp only [step]
    split
    · rename_i d r hh hs'
      have hd : d.length ≤ cMaxMessageLength := hs d (by rw [hs']; simp)
      refine ⟨?_, by simp [NoErr]⟩
      simp [flow, waiting, notHandled, hh, hs', List.take_of_length_le hd]
    · exact ⟨by simp, he⟩
  | fail => exact absurd (ha _ rfl) (by simp)
  | handler =>
    simp only [step]
    split_ifs with hm
    · exact ⟨by simp, he⟩
    · simp only [handlerStep]
      split
      · exact ⟨by simp, he⟩
      · rename_i err hh
        have : err = false := by
          cases err with
          | false => rfl
          | true => exact absurd hh he.1
        subst this
        split_ifs with hl
        · exact ⟨by simp [flow, waiting, notHandled, hh], by simp [NoErr]⟩
        · exact ⟨by simp, he⟩
      · rename_i err hh
        have : err = false := by
          cases err with
          | false => rfl
          | true => exact absurd hh he.2
        subst this
        have hl : s.lock = some .handler := h.lockH.mpr (.inr ⟨_, hh⟩)
        have hc : ¬ s.apc = .copied := by
          intro hc
          have := h.lockA.mpr (.inr hc)
          rw [hl] at this; simp at this
        exact ⟨by simp [flow, waiting, notHandled, hh, hc], by simp [NoErr]⟩
      · rename_i hh
        exact ⟨by simp [flow, waiting, notHandled, hh], by simp [NoErr]⟩
      · rename_i hh
        exact ⟨by simp [flow, waiting, notHandled, hh], by simp [NoErr]⟩
  | audio =>
    simp only [step, audioStep]
    split
    · rename_i hq
      refine ⟨?_, he⟩
      by_cases hm : s.mode = .synchronous <;> simp [flow, waiting, notHandled, hq, hm]
    · rename_i hq
      split
      · exact ⟨by simp [flow, waiting, notHandled, hq], he⟩
      · exact ⟨by simp [flow, waiting, notHandled, hq], he⟩
      · exact ⟨by simp, he⟩
    · rename_i hq
      split_ifs
      · exact ⟨by simp [flow, waiting, notHandled, hq], he⟩
      · exact ⟨by simp, he⟩
    · rename_i hq
      split
      · rename_i hi
        exact ⟨by simp [flow, waiting, notHandled, hq, hi], he⟩
      · rename_i m r hi
        exact ⟨by simp [flow, waiting, notHandled, hq, hi], he⟩
    · rename_i hq
      exact ⟨by simp [flow, waiting, notHandled, hq], he⟩

/-- The schedule contains no receive error. -/
def NoFail (acts : List (Act β)) : Prop := ∀ a ∈ acts, (match a with | .fail => False | _ => True)

/-- All datagrams fit into the receive buffer (UDP datagrams always do). -/
def Fit (acts : List (Act β)) : Prop := ∀ d ∈ arrivals acts, d.length ≤ cMaxMessageLength

theorem sock_subset (s : State β) (a : Act β) :
    ∀ d ∈ (step s a).sock, d ∈ s.sock ∨ a = .arrive d := by
  intro d hd
  cases a with
  | arrive x =>
    simp only [step, List.mem_append, List.mem_singleton] at hd
    rcases hd with hd | rfl
    · exact .inl hd
    · exact .inr rfl
  | complete =>
    simp only [step] at hd
    split at hd
    · rename_i hs; left; rw [hs]; simp only at hd; simp [hd]
    · exact .inl hd
  | fail =>
    simp only [step] at hd
    split at hd <;> exact .inl hd
  | handler =>
    left
    simp only [step] at hd
    by_cases hm : s.mode = .synchronous ∧ s.apc ≠ .polling
    · rw [if_pos hm] at hd; exact hd
    · rw [if_neg hm] at hd
      simp only [handlerStep] at hd
      split at hd
      · exact hd
      · split at hd <;> exact hd
      · exact hd
      · exact hd
      · exact hd
  | audio =>
    left
    simp only [step, audioStep] at hd
    split at hd
    · exact hd
    · split at hd <;> exact hd
    · split_ifs at hd <;> exact hd
    · split at hd <;> exact hd
    · exact hd

theorem flow_exec (s : State β) (h : Inv s) (he : NoErr s) (acts : List (Act β)) (hn : NoFail acts)
    (hf : Fit acts) (hs : ∀ d ∈ s.sock, d.length ≤ cMaxMessageLength) :
    flow (exec s acts) = flow s ++ arrivals acts := by
  induction acts generalizing s with
  | nil => simp [exec, arrivals]
  | cons a acts ih =>
    have hf' : Fit acts := by
      intro d hd; apply hf
      cases a <;> simp [arrivals, hd]
    obtain ⟨h1, h2⟩ := flow_step s h he a (by rintro e rfl; exact hn a (by simp)) hs
    have := ih (step s a) (inv_step s h a) h2 (fun b hb => hn b (by simp [hb])) hf' (by
      intro d hd
      rcases sock_subset s a d hd with h | rfl
      · exact hs d h
      · exact hf d (by simp [arrivals]))
    simp only [exec, List.foldl_cons] at this ⊢
    rw [this, h1]
    cases a <;> simp [arrivals]

/-! ### C34 -/

/-- C34: for every schedule of arrivals, completions, handler steps and audio thread
steps without receive errors, in both modes: the datagrams that arrived are, in order,
those passed to the output, those waiting in the internal buffer, and those for which the
handler has not run yet.  So the output is a prefix of the arrivals: no datagram is
lost, duplicated or reordered.  There is no data race on the internal buffer. -/
theorem exactly_once_in_order (mode : Mode) (acts : List (Act β)) (hn : NoFail acts) (hf : Fit acts) :
    arrivals acts = (exec (init mode) acts).out ++ waiting (exec (init mode) acts) ++
        notHandled (exec (init mode) acts) ∧
      (exec (init mode) acts).out <+: arrivals acts ∧
      (exec (init mode) acts).race = false := by
  have := flow_exec (init mode) (inv_init mode) (by simp [NoErr, init]) acts hn hf (by simp [init])
  have h0 : flow (init mode : State β) = [] := by simp [flow, waiting, notHandled, init]
  rw [h0, List.nil_append] at this
  refine ⟨this.symm, ?_, (inv_exec mode acts).race⟩
  rw [← this, flow, List.append_assoc]
  exact List.prefix_append _ _

/-- C34: no data race occurs in any schedule, also with receive errors. -/
theorem no_data_race (mode : Mode) (acts : List (Act β)) : (exec (init mode) acts).race = false :=
  (inv_exec mode acts).race

/-- C34: when `process()` returns, every datagram whose handler has run is in the output:
the output is all that arrived except what the handler has not handled yet. -/
theorem return_delivers_all (mode : Mode) (acts : List (Act β)) (hn : NoFail acts) (hf : Fit acts)
    (h0 : (exec (init mode) acts).apc ≠ .idle)
    (h1 : (step (exec (init mode) acts) .audio).apc = .idle) :
    arrivals acts = (step (exec (init mode) acts) .audio).out ++
      notHandled (step (exec (init mode) acts) .audio) := by
  have hf' := (exactly_once_in_order mode acts hn hf).1
  rw [hf']
  generalize exec (init mode) acts = s at *
  simp only [step, audioStep] at h1 ⊢
  cases hq : s.apc with
  | idle => exact absurd hq h0
  | polling =>
    simp only [hq] at h1
    cases hh : s.hpc <;> simp_all
  | want =>
    simp only [hq] at h1
    split_ifs at h1
    rw [hq] at h1; simp at h1
  | loop =>
    cases hi : s.internal with
    | nil => simp [waiting, notHandled, hq, hi]
    | cons m r => simp [hq, hi] at h1
  | copied => simp [hq] at h1

/-- Only the audio thread and the handler take steps. -/
def Internal (acts : List (Act β)) : Prop := ∀ a ∈ acts, (match a with | .audio => True | .handler => True | _ => False)

theorem drain (s : State β) (h : s.apc = .loop) :
    ∃ acts, Internal acts ∧ (exec s acts).apc = .idle ∧ (exec s acts).out = s.out ++ s.internal := by
  generalize hn : s.internal = l
  induction l generalizing s with
  | nil => exact ⟨[.audio], by simp [Internal], by simp [exec, step, audioStep, h, hn], by simp [exec, step, audioStep, h, hn]⟩
  | cons m r ih =>
    have e1 : (step (step s .audio) .audio).apc = .loop := by simp [step, audioStep, h, hn]
    have e2 : (step (step s .audio) .audio).internal = r := by simp [step, audioStep, h, hn]
    have e3 : (step (step s .audio) .audio).out = s.out ++ [m] := by simp [step, audioStep, h, hn]
    obtain ⟨acts, h1, h2, h3⟩ := ih (step (step s .audio) .audio) e1 e2
    refine ⟨.audio :: .audio :: acts, ?_, h2, ?_⟩
    · intro a ha
      simp only [List.mem_cons] at ha
      rcases ha with rfl | rfl | ha
      · trivial
      · trivial
      · exact h1 a ha
    · simp only [exec, List.foldl_cons] at h3 ⊢
      rw [h3, e3]
      simp

theorem from_want (s : State β) (hi : Inv s) (h : s.apc = .want) :
    ∃ acts, Internal acts ∧ (exec s acts).apc = .idle := by
  have hlock : s.lock = none → ∃ acts, Internal acts ∧ (exec s acts).apc = .idle := by
    intro hl
    obtain ⟨acts, h1, h2, _⟩ := drain (step s .audio) (by simp [step, audioStep, h, hl])
    exact ⟨.audio :: acts, by intro a ha; rcases List.mem_cons.mp ha with rfl | ha; trivial; exact h1 a ha, h2⟩
  cases hl : s.lock with
  | none => exact hlock hl
  | some t =>
    cases t with
    | audio => have := hi.lockA.mp hl; simp [h] at this
    | handler =>
      have hm : ¬ (s.mode = .synchronous ∧ s.apc ≠ .polling) := by
        rintro ⟨hm, _⟩
        have : s.apc = .polling := by
          apply hi.poll hm
          · intro e; have := hi.lockH.mp hl; simp [e] at this
          · intro e he; have := hi.lockH.mp hl; simp [he] at this
        rw [h] at this; simp at this
      -- the handler releases the lock
      have : ∃ acts, Internal acts ∧ (exec s acts).lock = none ∧ (exec s acts).apc = .want := by
        rcases hi.lockH.mp hl with hp | ⟨e, he⟩
        · refine ⟨[.handler], by simp [Internal], ?_, ?_⟩ <;>
            simp only [exec, List.foldl_cons, List.foldl_nil, step, if_neg hm, handlerStep, hp]
          exact h
        · refine ⟨[.handler, .handler], by simp [Internal], ?_, ?_⟩ <;>
            simp only [exec, List.foldl_cons, List.foldl_nil, step, if_neg hm, handlerStep, he]
          exact h
      obtain ⟨acts, h1, h2, h3⟩ := this
      obtain ⟨acts2, h4, h5, _⟩ := drain (step (exec s acts) .audio) (by simp [step, audioStep, h2, h3])
      refine ⟨acts ++ .audio :: acts2, ?_, ?_⟩
      · intro a ha
        simp only [List.mem_append, List.mem_cons] at ha
        rcases ha with ha | rfl | ha
        · exact h1 a ha
        · trivial
        · exact h4 a ha
      · simp only [exec, List.foldl_append, List.foldl_cons] at h5 ⊢
        exact h5

/-- C34: there is no deadlock: from every reachable state in which `process()` is active,
steps of the two threads alone let it return. -/
theorem process_can_return (mode : Mode) (acts : List (Act β)) :
    ∃ more, Internal more ∧ (exec (init mode) (acts ++ more)).apc = .idle := by
  have hi := inv_exec mode acts
  simp only [exec, List.foldl_append] at hi ⊢
  generalize List.foldl step (init mode) acts = s at hi
  cases hq : s.apc with
  | idle => exact ⟨[], by simp [Internal], hq⟩
  | polling =>
    -- a running handler finishes first
    have : ∃ acts, Internal acts ∧ (exec s acts).apc = .polling ∧
        ((exec s acts).hpc = .armed ∨ ∃ e, (exec s acts).hpc = .ready e) := by
      have hm : ¬ (s.mode = .synchronous ∧ s.apc ≠ .polling) := fun h => h.2 hq
      cases hh : s.hpc with
      | armed => exact ⟨[], by simp [Internal], hq, .inl hh⟩
      | ready e => exact ⟨[], by simp [Internal], hq, .inr ⟨e, hh⟩⟩
      | inside e =>
        refine ⟨[.handler, .handler, .handler], by simp [Internal], ?_, ?_⟩ <;>
          simp [exec, step, handlerStep, hq, hh]
      | pushed =>
        refine ⟨[.handler, .handler], by simp [Internal], ?_, ?_⟩ <;>
          simp [exec, step, handlerStep, hq, hh]
      | rearm =>
        refine ⟨[.handler], by simp [Internal], ?_, ?_⟩ <;>
          simp [exec, step, handlerStep, hq, hh]
    obtain ⟨acts1, h1, h2, h3⟩ := this
    have hi1 : Inv (exec s acts1) := by
      have key : ∀ (acts : List (Act β)) (s : State β), Inv s → Inv (exec s acts) := by
        intro acts
        induction acts with
        | nil => intro s h; exact h
        | cons a acts ih => intro s h; exact ih _ (inv_step s h a)
      exact key acts1 s hi
    have hw : (step (exec s acts1) .audio).apc = .want := by
      rcases h3 with h3 | ⟨e, h3⟩ <;> simp [step, audioStep, h2, h3]
    obtain ⟨acts2, h4, h5⟩ := from_want _ (inv_step _ hi1 .audio) hw
    refine ⟨acts1 ++ .audio :: acts2, ?_, ?_⟩
    · intro a ha
      simp only [List.mem_append, List.mem_cons] at ha
      rcases ha with ha | rfl | ha
      · exact h1 a ha
      · trivial
      · exact h4 a ha
    · simp only [exec, List.foldl_append, List.foldl_cons] at h5 ⊢
      exact h5
  | want => exact from_want s hi hq
  | loop => obtain ⟨a, h1, h2, _⟩ := drain s hq; exact ⟨a, h1, h2⟩
  | copied =>
    obtain ⟨a, h1, h2, _⟩ := drain (step s .audio) (by simp [step, audioStep, hq])
    exact ⟨.audio :: a, by intro b hb; rcases List.mem_cons.mp hb with rfl | hb; trivial; exact h1 b hb, h2⟩

/-- Finding: the handler ignores its error argument: after a receive error an empty
message is passed on although no datagram arrived (udp_receiver.cpp:182-189). -/
theorem error_sends_empty_message :
    (exec (init .asynchronous : State β) [.fail, .handler, .handler, .handler, .handler,
      .audio, .audio, .audio, .audio, .audio]).out = [[]] := by
  simp [exec, step, init, handlerStep, audioStep]

/-- A schedule in which the second datagram arrives and is handled while the first one is
passed on: the handler waits for the lock, and both are delivered in order. -/
example : (exec (init .asynchronous : State Nat) [.arrive [1], .complete, .handler, .handler, .handler,
    .handler, .audio, .audio, .audio, .arrive [2, 3], .complete, .handler, .audio, .audio, .handler,
    .handler, .handler, .handler, .audio, .audio, .audio, .audio, .audio]).out = [[1], [2, 3]] := by
  simp [exec, step, init, handlerStep, audioStep, cMaxMessageLength]

/-- The same datagrams in synchronous mode: handlers only run inside `poll()`. -/
example : (exec (init .synchronous : State Nat) [.arrive [1], .complete, .handler, .arrive [2, 3], .audio,
    .handler, .handler, .handler, .handler, .complete, .handler, .handler, .handler, .handler,
    .audio, .audio, .audio, .audio, .audio, .audio, .audio]).out = [[1], [2, 3]] := by
  simp [exec, step, init, handlerStep, audioStep, cMaxMessageLength]

end Visr.Udp
