import Verif.DelayVector.Model
import Verif.DelayVector.Spec
import Verif.DelayLine.Props

/-!
# C12, C47 for `rcl::DelayVector`
-/

set_option linter.unusedSectionVars false

namespace Visr.DelayVector
open Visr Visr.DelayLine Visr.CircularBuffer

variable {K α : Type*} [Field K] [LinearOrder K] [IsStrictOrderedRing K] [FloorRing K]

/-! ## Transitions of one parameter -/

theorem targets_none (i : α) (h : List (Option α)) :
    targets i (h ++ [none]) = ((targets i h).1, (targets i h).2.1, (targets i h).2.2 + 1) := by
  simp [targets, List.foldl_append]

theorem targets_some (i g : α) (h : List (Option α)) :
    targets i (h ++ [some g]) = ((targets i h).2.1, g, 1) := by
  simp [targets, List.foldl_append]

theorem targets_quiet (i : α) (h : List (Option α)) (hq : ∀ c ∈ h, c = none) :
    targets i h = (i, i, h.length) := by
  have : h = List.replicate h.length none := by rw [List.eq_replicate_iff]; exact ⟨rfl, hq⟩
  rw [this]
  induction h.length with
  | zero => rfl
  | succ n ih =>
    rw [List.replicate_succ', targets_none, ih]
    simp

/-- `t` represents the history `h`. -/
structure TRep (t : Trans K) (B : Nat) (i : List K) (h : List (Option (List K))) : Prop where
  cur : t.current = (targets i h).1
  nxt : t.next = (targets i h).2.1
  cnt : t.counter = min (targets i h).2.2 B

theorem combination_self (r : K) (l : List K) : vectorCombinationInplace r l l = l := by
  induction l with
  | nil => rfl
  | cons x l ih =>
    simp only [vectorCombinationInplace, List.zipWith_cons_cons] at ih ⊢
    rw [ih]; simp

theorem calm_prefix {B : Nat} {i : α} {h h' : List (Option α)} (hc : Calm B i h) (hp : h' <+: h) :
    Calm B i h' := fun p g hpg => hc p g (hpg.trans hp)

/-- A control input of a calm history continues the history. The value after it starts at the value reached. -/
theorem control_rep {t : Trans K} {B : Nat} {i : List K} {h : List (Option (List K))} {c : Option (List K)}
    {set : Trans K → List K → Outcome (Trans K)}
    (r : TRep t B i h) (hcalm : Calm B i (h ++ [c]))
    (hset : ∀ g, c = some g → ∃ x, set t g = .ok ⟨if t.counter < B then vectorCombinationInplace x t.next t.current
      else t.next, g, 0⟩) :
    ∃ t', control set t c = .ok t' ∧ TRep (advance B t') B i (h ++ [c]) ∧
      (∀ ch, startValue B t' ch = paramAt B ((targets i (h ++ [c])).1.getD ch 0)
        ((targets i (h ++ [c])).2.1.getD ch 0) ((targets i (h ++ [c])).2.2 - 1)) ∧
      (∀ ch, endValue B t' ch = paramAt B ((targets i (h ++ [c])).1.getD ch 0)
        ((targets i (h ++ [c])).2.1.getD ch 0) ((targets i (h ++ [c])).2.2)) := by
  cases c with
  | none =>
    refine ⟨t, rfl, ⟨?_, ?_, ?_⟩, ?_, ?_⟩
    · rw [targets_none]; exact r.cur
    · rw [targets_none]; exact r.nxt
    · rw [targets_none]; have := r.cnt; simp only [advance]; omega
    · intro ch
      rw [targets_none]
      simp only [startValue, paramAt, r.cur, r.nxt, r.cnt, Nat.add_sub_cancel]
      ring
    · intro ch
      rw [targets_none]
      simp only [endValue, paramAt, r.cur, r.nxt, r.cnt]
      rw [show min (min (targets i h).2.2 B + 1) B = min ((targets i h).2.2 + 1) B by omega]
      ring
  | some g =>
    obtain ⟨x, hx⟩ := hset g rfl
    have hcur : (if t.counter < B then vectorCombinationInplace x t.next t.current else t.next) = t.next := by
      by_cases hlt : t.counter < B
      · rw [if_pos hlt]
        rcases hcalm h g (List.prefix_refl _) with hB | hq
        · have := r.cnt; omega
        · have ht := targets_quiet i h hq
          have : t.current = t.next := by rw [r.cur, r.nxt, ht]
          rw [this, combination_self]
      · rw [if_neg hlt]
    rw [hcur] at hx
    refine ⟨⟨t.next, g, 0⟩, hx, ⟨?_, ?_, ?_⟩, ?_, ?_⟩
    · rw [targets_some]; exact r.nxt
    · rw [targets_some]; rfl
    · rw [targets_some]; simp only [advance]; omega
    · intro ch
      rw [targets_some]
      simp only [startValue, paramAt, r.nxt]
      simp
    · intro ch
      rw [targets_some]
      simp only [endValue, paramAt, r.nxt, Nat.zero_add]
      ring

/-- **C12 for `DelayVector`, completed transitions.** If changes arrive only after the previous transition is complete,
the start value of every block is the end value of the block before: delay and gain curves are continuous. Stated for
the specified curve `paramAt` that the component follows by `delayVector_output`. -/
theorem delayVector_continuous_partial (B : Nat) (hB : 0 < B) (i : List K) (h : List (Option (List K)))
    (c : Option (List K)) (hcalm : Calm B i (h ++ [c])) (ch : Nat) :
    paramAt B ((targets i (h ++ [c])).1.getD ch 0) ((targets i (h ++ [c])).2.1.getD ch 0)
        ((targets i (h ++ [c])).2.2 - 1)
      = paramAt B ((targets i h).1.getD ch 0) ((targets i h).2.1.getD ch 0) ((targets i h).2.2) := by
  have hB' : (B : K) ≠ 0 := by exact_mod_cast hB.ne'
  cases c with
  | none => rw [targets_none]; rfl
  | some g =>
    rw [targets_some]
    rcases hcalm h g (List.prefix_refl _) with hle | hq
    · simp only [paramAt, Nat.sub_self, Nat.min_eq_right hle, div_self hB']
      simp
    · rw [targets_quiet i h hq]
      simp [paramAt]

/-! ## The component -/

theorem paramAt_mem {B : Nat} (hB : 0 < B) {p q lo hi : K} (hp : lo ≤ p ∧ p ≤ hi) (hq : lo ≤ q ∧ q ≤ hi) (m : Nat) :
    lo ≤ paramAt B p q m ∧ paramAt B p q m ≤ hi := by
  have hBK : (0 : K) < B := by exact_mod_cast hB
  set x : K := ((min m B : Nat) : K) / (B : K) with hx
  have h0 : 0 ≤ x := by positivity
  have h1 : x ≤ 1 := by rw [hx, div_le_one hBK]; exact_mod_cast Nat.min_le_right m B
  have e : paramAt B p q m = (1 - x) * p + x * q := by unfold paramAt; rw [← hx]; ring
  have a1 := mul_le_mul_of_nonneg_left hp.1 (sub_nonneg.mpr h1)
  have a2 := mul_le_mul_of_nonneg_left hq.1 h0
  have a3 := mul_le_mul_of_nonneg_left hp.2 (sub_nonneg.mpr h1)
  have a4 := mul_le_mul_of_nonneg_left hq.2 h0
  rw [e]
  constructor
  · calc lo = (1 - x) * lo + x * lo := by ring
      _ ≤ _ := add_le_add a1 a2
  · calc _ ≤ (1 - x) * hi + x * hi := add_le_add a3 a4
      _ = hi := by ring

theorem targets_values {channels : Nat} {P : K → Prop} {i : List K} {h : List (Option (List K))}
    (hv : AllValues channels P i h) :
    ((targets i h).1.length = channels ∧ ∀ v ∈ (targets i h).1, P v) ∧
    ((targets i h).2.1.length = channels ∧ ∀ v ∈ (targets i h).2.1, P v) := by
  induction h using List.reverseRecOn with
  | nil => exact ⟨hv.1, hv.1⟩
  | append_singleton h c ih =>
    have := ih ⟨hv.1, fun g hg => hv.2 g (by simp [hg])⟩
    cases c with
    | none => rw [targets_none]; exact this
    | some g => rw [targets_some]; exact ⟨this.2, hv.2 g (by simp)⟩

/-- Usable delays are closed under transitions. -/
theorem usable_paramAt {policy : Policy} {order : Nat} {fs M p q : K} {B : Nat} (hB : 0 < B)
    (hp : Usable policy order fs M p) (hq : Usable policy order fs M q) (m : Nat) :
    Usable policy order fs M (paramAt B p q m) := by
  have e : paramAt B p q m * fs = paramAt B (p * fs) (q * fs) m := by unfold paramAt; ring
  unfold Usable at *
  cases policy with
  | add =>
    simp only at hp hq ⊢
    rw [e]
    have := paramAt_mem (lo := 0) (hi := M - order) hB ⟨hp.1, by linarith [hp.2]⟩ ⟨hq.1, by linarith [hq.2]⟩ m
    exact ⟨this.1, by linarith [this.2]⟩
  | limit =>
    simp only at hp hq ⊢
    rw [e]
    have := paramAt_mem (lo := min (p * fs) (q * fs)) (hi := M - (order : K) / 2) hB
      ⟨min_le_left _ _, by linarith [hp.1]⟩ ⟨min_le_right _ _, by linarith [hq.1]⟩ m
    exact ⟨by linarith [this.2], hp.2⟩
  | reject =>
    simp only at hp hq ⊢
    rw [e]
    have := paramAt_mem (lo := (order : K) / 2) (hi := M - (order : K) / 2) hB ⟨hp.1, by linarith [hp.2]⟩
      ⟨hq.1, by linarith [hq.2]⟩ m
    exact ⟨this.1, by linarith [this.2]⟩

theorem usable_accepted {policy : Policy} {order : Nat} {fs M v : K} (h : Usable policy order fs M v) :
    accepted policy order (v * fs) M ∧ totalDelay policy order (v * fs) + (order : K) / 2 ≤ M := by
  have ho : (0 : K) ≤ (order : K) := Nat.cast_nonneg _
  unfold Usable at h
  unfold accepted totalDelay
  cases policy with
  | add => simp only at h ⊢; exact ⟨⟨by linarith [h.2], h.1⟩, by linarith [h.2]⟩
  | limit =>
    simp only at h ⊢
    refine ⟨⟨by linarith [h.1], trivial⟩, ?_⟩
    rcases max_choice (v * fs) ((order : K) / 2) with e | e <;> rw [e]
    · exact h.1
    · linarith [h.2]
  | reject => simp only at h ⊢; exact ⟨⟨by linarith [h.2], h.1⟩, h.2⟩

/-- Everything fixed by `setup()`. -/
structure Config (K : Type*) where
  fs : K
  period : Nat
  channels : Nat
  blocks : Nat
  maxDelay : Nat
  order : Nat
  policy : Policy
  delays : List K
  gains : List K

/-- The component represents a history of inputs. -/
structure Rep (st : State K) (c : Config K) (h : List (Input K)) : Prop where
  chans : st.channels = c.channels
  blocks : st.blocks = c.blocks
  gains : TRep st.gains c.blocks c.gains (h.map (·.gain))
  delays : TRep st.delays c.blocks c.delays (h.map (·.delay))
  ring : CircularBuffer.Rep st.line.ring (fun ch => written c.period ch (h.map (·.audio)))
  order : st.line.order = c.order
  policy : st.line.policy = c.policy
  fs : st.line.fs = c.fs
  maxD : st.line.maxDelay = ((c.maxDelay : Int) : K)
  len : st.line.ring.length = c.maxDelay + st.line.blockLength
  block : st.line.blockLength = c.period
  rchans : st.line.ring.channels = c.channels

/-- Expected output of channel `ch` for the last input of a history: gain times the signal delayed by the total delay
according to the policy, with gain and delay (in seconds) following the specified transitions. -/
noncomputable def expectedOut (c : Config K) (h : List (Input K)) (ch : Nat) : List K :=
  let g := targets c.gains (h.map (·.gain))
  let d := targets c.delays (h.map (·.delay))
  let gainAt := fun m => paramAt c.blocks (g.1.getD ch 0) (g.2.1.getD ch 0) m
  let delayAt := fun m => totalDelay c.policy c.order (paramAt c.blocks (d.1.getD ch 0) (d.2.1.getD ch 0) m * c.fs)
  (List.range c.period).map fun i =>
    ramp (gainAt (g.2.2 - 1)) (gainAt g.2.2) c.period i *
      fractional (fun k => past (written c.period ch (h.map (·.audio))) (c.period - i + k)) c.order
        (ramp (delayAt (d.2.2 - 1)) (delayAt d.2.2) c.period i)

theorem process_rep {eps : K} (heps : 0 ≤ eps) {st : State K} {c : Config K} {h : List (Input K)} (r : Rep st c h)
    (x : Input K) (hB : 0 < c.blocks)
    (hg : AllValues c.channels (fun _ => True) c.gains ((h ++ [x]).map (·.gain)))
    (hd : AllValues c.channels (Usable c.policy c.order c.fs ((c.maxDelay : Int) : K)) c.delays
      ((h ++ [x]).map (·.delay)))
    (hcg : Calm c.blocks c.gains ((h ++ [x]).map (·.gain)))
    (hcd : Calm c.blocks c.delays ((h ++ [x]).map (·.delay))) :
    Rep (process eps st x).1 c (h ++ [x]) ∧
    (process eps st x).2 = .ok ((List.range c.channels).map (expectedOut c (h ++ [x]))) := by
  simp only [List.map_append, List.map_cons, List.map_nil] at hg hd hcg hcd
  obtain ⟨g', hg1, hg2, hg3, hg4⟩ := control_rep (set := setGain st.channels st.blocks) r.gains hcg (by
    intro v hv
    have hl := (hg.2 v (by simp [hv])).1
    refine ⟨1 - ((st.blocks - st.gains.counter : Nat) : K) / (st.blocks : K), ?_⟩
    simp only [setGain, r.chans, hl, r.blocks]; simp)
  obtain ⟨d', hd1, hd2, hd3, hd4⟩ := control_rep (set := setDelay st.channels st.blocks) r.delays hcd (by
    intro v hv
    have hl := (hd.2 v (by simp [hv])).1
    refine ⟨(st.delays.counter : K) / (st.blocks : K), ?_⟩
    simp only [setDelay, r.chans, hl, r.blocks]; simp)
  have hlen : st.line.blockLength ≤ st.line.ring.length := by rw [r.len]; omega
  obtain ⟨ring', w1, w2, w3, w4⟩ := rep_write r.ring x.audio hlen
  have hw : DelayLine.write st.line x.audio st.channels = .ok { st.line with ring := ring' } := by
    simp only [DelayLine.write]
    rw [if_neg (by simp [r.chans, r.rchans]), show st.channels = st.line.ring.channels by rw [r.chans, r.rchans], w1]
  obtain ⟨L, hL⟩ : ∃ L : DL K, L = { st.line with ring := ring' } := ⟨_, rfl⟩
  rw [← hL] at hw
  have l1 : L.ring = ring' := by rw [hL]
  have l2 : L.order = c.order := by rw [hL]; exact r.order
  have l3 : L.fs = c.fs := by rw [hL]; exact r.fs
  have l4 : L.maxDelay = ((c.maxDelay : Int) : K) := by rw [hL]; exact r.maxD
  have l5 : L.blockLength = st.line.blockLength := by rw [hL]
  have l6 : L.policy = c.policy := by rw [hL]; exact r.policy
  have hring : CircularBuffer.Rep ring' (fun ch => written c.period ch ((h ++ [x]).map (·.audio))) := by
    have : (fun ch => written c.period ch (h.map (·.audio)) ++ (List.range st.line.blockLength).map (x.audio ch))
        = (fun ch => written c.period ch ((h ++ [x]).map (·.audio))) := by
      funext ch; simp [written, r.block]
    rw [← this]; exact w2
  have hdv := targets_values hd
  have hint : ∀ ch ∈ List.range st.channels,
      DelayLine.interpolate eps L ch st.line.blockLength
        (startValue st.blocks d' ch) (endValue st.blocks d' ch) (startValue st.blocks g' ch) (endValue st.blocks g' ch)
      = .ok (expectedOut c (h ++ [x]) ch) := by
    intro ch hch
    have hch : ch < c.channels := by rw [← r.chans]; simpa using hch
    have hmem : ∀ l : List K, l.length = c.channels → l.getD ch 0 ∈ l := by
      intro l hl
      rw [List.getD_eq_getElem?_getD, List.getElem?_eq_getElem (by omega)]
      simp
    have hp := hdv.1.2 _ (hmem _ hdv.1.1)
    have hq := hdv.2.2 _ (hmem _ hdv.2.1)
    rw [r.blocks, hd3, hd4, hg3, hg4]
    have hrange := fun m => usable_accepted (usable_paramAt hB hp hq m)
    have key := interpolate_rep heps (d := L) (l1 ▸ hring) ch st.line.blockLength
      (M := (c.maxDelay : Int)) (by omega) l4 (by rw [l1, w4, r.len, l5]; simp) (by
        rw [l1, w3, r.rchans]; exact hch) l5.ge
      (paramAt c.blocks ((targets c.delays (h.map (·.delay) ++ [x.delay])).1.getD ch 0)
        ((targets c.delays (h.map (·.delay) ++ [x.delay])).2.1.getD ch 0)
        ((targets c.delays (h.map (·.delay) ++ [x.delay])).2.2 - 1))
      (paramAt c.blocks ((targets c.delays (h.map (·.delay) ++ [x.delay])).1.getD ch 0)
        ((targets c.delays (h.map (·.delay) ++ [x.delay])).2.1.getD ch 0)
        ((targets c.delays (h.map (·.delay) ++ [x.delay])).2.2))
      (paramAt c.blocks ((targets c.gains (h.map (·.gain) ++ [x.gain])).1.getD ch 0)
        ((targets c.gains (h.map (·.gain) ++ [x.gain])).2.1.getD ch 0)
        ((targets c.gains (h.map (·.gain) ++ [x.gain])).2.2 - 1))
      (paramAt c.blocks ((targets c.gains (h.map (·.gain) ++ [x.gain])).1.getD ch 0)
        ((targets c.gains (h.map (·.gain) ++ [x.gain])).2.1.getD ch 0)
        ((targets c.gains (h.map (·.gain) ++ [x.gain])).2.2))
    simp only [l2, l3, l6] at key
    rw [key (hrange _).1 (hrange _).1 (hrange _).2 (hrange _).2]
    unfold expectedOut
    simp only [List.map_append, List.map_cons, List.map_nil, r.block]
  have hcol := collect_ok _ _ _ hint
  have hproc : process eps st x = (⟨st.channels, st.blocks, advance st.blocks d', advance st.blocks g', L⟩, .ok ((List.range st.channels).map (expectedOut c (h ++ [x])))) := by
    simp only [process, hg1, hd1, hw, l5, hcol]
  rw [hproc]
  refine ⟨⟨r.chans, r.blocks, ?_, ?_, ?_, l2, l6, l3, l4, ?_, l5.trans r.block, ?_⟩, by rw [r.chans]⟩
  · rw [r.blocks]; simpa using hg2
  · rw [r.blocks]; simpa using hd2
  · show CircularBuffer.Rep L.ring _; rw [l1]; exact hring
  · show L.ring.length = _ + L.blockLength; rw [l1, w4, r.len, l5]
  · show L.ring.channels = _; rw [l1, w3, r.rchans]

/-- **C47.** For every configuration of `rcl::DelayVector` (every interpolation method and policy), every history of
`process()` calls whose delays are usable, and whose changes arrive after the previous transition is complete, each
call outputs for each channel the delayed and scaled input signal, where gain and delay follow the linear transitions
of the specification (also through the transitions). -/
theorem delayVector_output {eps : K} (heps : 0 ≤ eps) (fs maxSeconds : K) (period channels steps align order : Nat)
    (method : String) (hmethod : methodOrder method = some order) (policy : Policy) (delays gains : List K)
    (st : State K)
    (hsetup : setup fs period channels steps maxSeconds method policy align delays gains = .ok st)
    (past : List (Input K)) (x : Input K)
    (hg : AllValues channels (fun _ => True) gains ((past ++ [x]).map (·.gain)))
    (hd : AllValues channels (Usable policy order fs (⌈maxSeconds * fs⌉ : K)) delays ((past ++ [x]).map (·.delay)))
    (hcg : Calm (steps / period) gains ((past ++ [x]).map (·.gain)))
    (hcd : Calm (steps / period) delays ((past ++ [x]).map (·.delay))) :
    (process eps (final (process eps) st past) x).2 = .ok ((List.range channels).map
      (expectedOut ⟨fs, period, channels, steps / period, ⌈maxSeconds * fs⌉.toNat, order, policy, delays, gains⟩
        (past ++ [x]))) := by
  unfold setup at hsetup
  by_cases h1 : period = 0
  · simp [h1] at hsetup
  by_cases h2 : steps % period ≠ 0
  · simp [h1, h2] at hsetup
  by_cases h3 : steps / period < 1
  · simp only [h1, h2, h3, if_false, if_true] at hsetup; simp at hsetup
  simp only [h1, h2, h3, if_false] at hsetup
  have hB : 0 < steps / period := by omega
  unfold DelayLine.mk at hsetup
  by_cases h4 : ⌈maxSeconds * fs⌉ < 0
  · simp [h4] at hsetup
  simp only [h4, if_false, hmethod] at hsetup
  have h5 : ¬ (delays.length < channels ∨ gains.length < channels) := by
    have := hg.1.1; have := hd.1.1; omega
  simp only [h5, if_false] at hsetup
  injection hsetup with hst
  set c : Config K := ⟨fs, period, channels, steps / period, ⌈maxSeconds * fs⌉.toNat, order, policy, delays, gains⟩
    with hc
  have hM : ((c.maxDelay : Int) : K) = (⌈maxSeconds * fs⌉ : K) := by
    rw [hc]; simp only; congr 1; omega
  have hrep0 : Rep st c [] := by
    rw [← hst]
    refine ⟨rfl, rfl, ⟨?_, ?_, ?_⟩, ⟨?_, ?_, ?_⟩, ?_, rfl, rfl, rfl, ?_, ?_, rfl, rfl⟩
    · simp [targets, hc, ← hg.1.1]
    · simp [targets, hc, ← hg.1.1]
    · simp [targets]
    · simp [targets, hc, ← hd.1.1]
    · simp [targets, hc, ← hd.1.1]
    · simp [targets]
    · simp only [List.map_nil, written, List.flatMap_nil]
      exact rep_init _ _ _ (by omega)
    · rw [hM]; rfl
    · rfl
  have hall : ∀ (l : List (Input K)), l <+: past → Rep (final (process eps) st l) c l := by
    intro l
    induction l using List.reverseRecOn with
    | nil => intro _; exact hrep0
    | append_singleton l y ih =>
      intro hl
      have hpre : l <+: past := (List.prefix_append l [y]).trans hl
      have hl' : (l ++ [y]) <+: past ++ [x] := hl.trans (List.prefix_append _ _)
      have hmg : ((l ++ [y]).map (·.gain)) <+: ((past ++ [x]).map (·.gain)) := hl'.map _
      have hmd : ((l ++ [y]).map (·.delay)) <+: ((past ++ [x]).map (·.delay)) := hl'.map _
      rw [final_append]
      simp only [final_cons, final_nil]
      refine (process_rep heps (ih hpre) y hB ⟨hg.1, fun g hgm => hg.2 g (hmg.subset hgm)⟩
        ?_ (calm_prefix hcg hmg) (calm_prefix hcd hmd)).1
      rw [hM]
      exact ⟨hd.1, fun g hgm => hd.2 g (hmd.subset hgm)⟩
  have hfin := hall past (List.prefix_refl _)
  refine (process_rep heps hfin x hB hg ?_ hcg hcd).2
  rw [hM]; exact hd

/-- A concrete instance: one channel, blocks of two samples at 10 Hz, a gain change from 1 to 3 over two blocks and
constant delay of one sample. -/
example : ∃ st, setup (10 : ℚ) 2 1 4 (1/2) "nearestSample" .add 0 [1/10] [1] = .ok st ∧
    (process (1/1000) (final (process (1/1000)) st [⟨some [3], none, fun _ i => i + 1⟩])
      ⟨none, none, fun _ i => i + 3⟩).2 = .ok [[5, 9]] := by
  have hc : ⌈(1/2 : ℚ) * 10⌉ = 5 := by norm_num
  obtain ⟨st, hst⟩ : ∃ st, setup (10 : ℚ) 2 1 4 (1/2) "nearestSample" .add 0 [1/10] [1] = .ok st := by
    simp [setup, DelayLine.mk, methodOrder]
    rw [if_neg (by norm_num)]
    exact ⟨_, rfl⟩
  refine ⟨st, hst, ?_⟩
  have := delayVector_output (eps := 1/1000) (by norm_num) 10 (1/2) 2 1 4 0 0 "nearestSample" rfl .add [1/10] [1] st hst
    [⟨some [3], none, fun _ i => i + 1⟩] ⟨none, none, fun _ i => i + 3⟩
    (by simp [AllValues]) (by simp [AllValues, Usable]; norm_num)
    (by
      intro p g hp
      right
      rcases p with _ | ⟨a, _ | ⟨b, p⟩⟩
      · simp
      · obtain ⟨r, hr⟩ := hp; simp at hr
      · have := hp.length_le; simp at this)
    (by
      intro p g hp
      exfalso
      have := hp.subset (show some g ∈ p ++ [some g] by simp)
      simp at this)
  rw [this]
  simp [expectedOut, totalDelay, fractional, targets, paramAt, written, past, ramp, List.range, List.range.loop]
  norm_num

/-! ## Interrupted transitions -/

/-- **C12 (negation for `DelayVector`).** A change in the middle of a running transition does not continue from the value
reached: the weights of old and new value are exchanged. From 0 towards 4 over four blocks, one block has moved the
value to 1; the next change (to any target) restarts from 3. The same holds for gains and delays. -/
theorem delayVector_interrupted_jumps (t : Trans ℚ) (new : List ℚ) (ht : t = ⟨[0], [4], 0⟩) (hn : new.length = 1) :
    endValue 4 t 0 = 1 ∧
    (∃ t', setGain 1 4 (advance 4 t) new = .ok t' ∧ startValue 4 t' 0 = 3) ∧
    (∃ t', setDelay 1 4 (advance 4 t) new = .ok t' ∧ startValue 4 t' 0 = 3) := by
  subst ht
  refine ⟨by norm_num [endValue], ?_, ?_⟩
  · refine ⟨⟨[3], new, 0⟩, ?_, by norm_num [startValue]⟩
    simp [setGain, advance, hn, vectorCombinationInplace]; norm_num
  · refine ⟨⟨[3], new, 0⟩, ?_, by norm_num [startValue]⟩
    simp [setDelay, advance, hn, vectorCombinationInplace]; norm_num

/-- The documentation allows an interpolation length of 0 for immediate changes; `setup()` rejects it. -/
theorem delayVector_immediate_rejected (fs maxSeconds : K) (period channels align : Nat) (method : String)
    (policy : Policy) (delays gains : List K) (hp : 0 < period) :
    setup fs period channels 0 maxSeconds method policy align delays gains = .throw .invalidArgument := by
  simp [setup, hp.ne']

omit [IsStrictOrderedRing K] in
/-- **C47, rejected control messages.** A gain or delay vector of the wrong size makes `process()` throw
`invalid_argument`: the delay vector in force, the delay line and (unless a valid one came with it) the gains stay as
they were. -/
theorem delayVector_wrong_size (eps : K) (st : State K) (v : List K) (g : Option (List K)) (audio : Nat → Nat → K)
    (h : v.length ≠ st.channels) :
    process eps st ⟨some v, g, audio⟩ = (st, .throw .invalidArgument) ∧
    process eps st ⟨none, some v, audio⟩ = (st, .throw .invalidArgument) := by
  constructor <;> simp [process, control, setGain, setDelay, h]

example : process (0 : ℚ) ⟨2, 1, ⟨[0, 0], [0, 0], 0⟩, ⟨[1, 1], [1, 1], 0⟩, line⟩ ⟨none, some [3], fun _ _ => 0⟩
    = (⟨2, 1, ⟨[0, 0], [0, 0], 0⟩, ⟨[1, 1], [1, 1], 0⟩, line⟩, .throw .invalidArgument) :=
  (delayVector_wrong_size 0 _ [3] none _ (by simp)).2

end Visr.DelayVector
