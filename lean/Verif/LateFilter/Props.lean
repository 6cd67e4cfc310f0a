import Verif.LateFilter.Lemmas
import Mathlib.Tactic.NormNum
import Mathlib.Tactic.FinCases

/-!
# C64: the filters computed for late reverberation messages
-/

namespace Visr.LateFilter
open Visr
open Visr.Reverb (Late)

variable {n : ℕ} {seconds fs : ℝ} {subBands maxUpdates align : ℕ} {raw : ℕ → ℕ → ℝ} {cfg : Cfg}

/-- `f` is the filter for the message `m`. -/
def Realises (align len : ℕ) (fs : ℝ) (raw : ℕ → ℕ → ℝ) (m : ℕ × Late) (f : ℕ × List ℝ) : Prop :=
  f.1 = m.1 ∧ f.2.length = len ∧ ∃ d a, Fits len fs m.2 d a ∧ ∀ k (h : k < f.2.length), f.2[k] = tail align fs raw m.1 m.2 d a k

/-- The sizes fixed at construction: the filter length is the smallest positive number of samples that covers the requested
duration. -/
theorem create_spec (hc : create n seconds fs subBands maxUpdates align raw = .ok cfg) :
    cfg.objects = n ∧ cfg.fs = fs ∧ cfg.bandNoise = noiseRow align cfg.len raw ∧ cfg.len < 2 ^ 64 ∧ subBands = 9 ∧
      cfg.maxUpdates = (if maxUpdates = 0 then n else maxUpdates) ∧
      IsLeast {m : ℕ | 1 ≤ m ∧ seconds * fs ≤ m} cfg.len := by
  unfold create at hc
  simp only at hc
  split at hc
  · cases hc
  rename_i h1
  split at hc
  · cases hc
  rename_i h2
  simp only [Outcome.ok.injEq] at hc
  subst hc
  have hpos : 0 ≤ max ⌈seconds * fs⌉ 1 := le_trans (by norm_num) (le_max_right _ _)
  have hcast : ((max ⌈seconds * fs⌉ 1).toNat : ℤ) = max ⌈seconds * fs⌉ 1 := Int.toNat_of_nonneg hpos
  refine ⟨rfl, rfl, rfl, ?_, ?_, rfl, ⟨?_, ?_⟩, ?_⟩
  · show (max ⌈seconds * fs⌉ 1).toNat < 2 ^ 64
    have : ((max ⌈seconds * fs⌉ 1).toNat : ℤ) < 2 ^ 64 := by rw [hcast]; omega
    exact_mod_cast this
  · have : octaveBands.length = 9 := rfl
    omega
  · show 1 ≤ (max ⌈seconds * fs⌉ 1).toNat
    have := le_max_right ⌈seconds * fs⌉ 1
    omega
  · show seconds * fs ≤ ((max ⌈seconds * fs⌉ 1).toNat : ℝ)
    have h3 : ((⌈seconds * fs⌉ : ℤ) : ℝ) ≤ (((max ⌈seconds * fs⌉ 1).toNat : ℤ) : ℝ) := by
      rw [hcast]; exact_mod_cast le_max_left _ _
    exact le_trans (Int.le_ceil _) (by exact_mod_cast h3)
  · rintro m ⟨m1, m2⟩
    show (max ⌈seconds * fs⌉ 1).toNat ≤ m
    have : ⌈seconds * fs⌉ ≤ (m : ℤ) := Int.ceil_le.2 (by exact_mod_cast m2)
    have : max ⌈seconds * fs⌉ 1 ≤ (m : ℤ) := max_le this (by omega)
    omega

theorem fits_calculate (hc : create n seconds fs subBands maxUpdates align raw = .ok cfg) {m : ℕ × Late} {d : ℕ} {a : Fin 9 → ℕ}
    (h : Fits cfg.len fs m.2 d a) : calculate cfg m.1 m.2 = .ok ((List.range cfg.len).map (tail align fs raw m.1 m.2 d a)) := by
  obtain ⟨-, s2, s3, s4, -⟩ := create_spec hc
  rw [calculate_fits s3 s4 (d := d) (a := a) (by rw [s2]; exact h), s2]

/-- **C64.** A call takes the given number of messages from the front of the queue (all of them if there are fewer) and sends
for each, in the same order and with the same channel, the filter of its parameters: the sum over nine octave bands of the
noise of this object and band, shaped by silence up to the onset, a linear attack and an exponential decay. This holds
for all messages with a valid channel whose onset and attack times fit into the filter. -/
theorem filters_sent (hc : create n seconds fs subBands maxUpdates align raw = .ok cfg) (hn : 0 < n) (s : State) (u : ℕ)
    (hu : u = if maxUpdates = 0 then n else maxUpdates)
    (hg : ∀ m ∈ s.queue.take u, m.1 < n ∧ ∃ d a, Fits cfg.len fs m.2 d a) :
    ∃ new, process cfg s = (⟨s.queue.drop u, s.sent ++ new⟩, .ok ()) ∧
      List.Forall₂ (Realises align cfg.len fs raw) (s.queue.take u) new := by
  obtain ⟨s1, s2, s3, s4, s5, s6, -⟩ := create_spec hc
  have hu' : cfg.maxUpdates = u := by rw [s6, hu]
  have hup : 0 < u := by rw [hu]; split <;> omega
  have key : ∀ m ∈ s.queue.take u, Good cfg m ∧ Realises align cfg.len fs raw m (filterFor cfg m) := by
    intro m hm
    obtain ⟨h1, d, a, h2⟩ := hg m hm
    have hcalc := fits_calculate hc h2
    refine ⟨⟨by rw [s1]; exact h1, _, hcalc⟩, ?_⟩
    have hf : filterFor cfg m = (m.1, (List.range cfg.len).map (tail align fs raw m.1 m.2 d a)) := by
      unfold filterFor; rw [hcalc]
    rw [hf]
    exact ⟨rfl, by simp, d, a, h2, fun k _ => by simp⟩
  refine ⟨(s.queue.take u).map (filterFor cfg), ?_, ?_⟩
  · unfold process
    rw [processLoop_good _ _ _ (by omega) (by rw [hu']; exact fun m hm => (key m hm).1), hu', Nat.sub_zero]
  · rw [List.forall₂_map_right_iff, List.forall₂_same]
    exact fun m hm => (key m hm).2

/-- **C64**, determinacy: the onset and attack times in samples are determined by the parameters, so that there is only one
filter for a message. -/
theorem realises_unique {len : ℕ} {m : ℕ × Late} {f g : ℕ × List ℝ} (hf : Realises align len fs raw m f)
    (hg : Realises align len fs raw m g) : f = g := by
  obtain ⟨f1, f2, d, a, f3, f4⟩ := hf
  obtain ⟨g1, g2, d', a', g3, g4⟩ := hg
  have hd := nearest_unique f3.nearOnset g3.nearOnset
  have ha : a = a' := funext fun b => nearest_unique (f3.nearAttack b) (g3.nearAttack b)
  subst hd ha
  refine Prod.ext (f1.trans g1.symm) (List.ext_getElem (f2.trans g2.symm) fun k h1 h2 => ?_)
  rw [f4, g4]

/-- **C64**, silence: a message with zero levels gives a filter of zeros, and no filter has sound before its onset. -/
theorem silent_filter {len : ℕ} {m : ℕ × Late} {f : ℕ × List ℝ} (hf : Realises align len fs raw m f) :
    ((∀ b, m.2.levels b = 0) → f.2 = List.replicate len 0) ∧
    ∀ k (h : k < f.2.length), (k : ℝ) + 1 / 2 < m.2.onset * fs → f.2[k] = 0 := by
  obtain ⟨f1, f2, d, a, f3, f4⟩ := hf
  refine ⟨fun h0 => ?_, fun k h hk => ?_⟩
  · refine List.ext_getElem (by simp [f2]) fun k h1 h2 => ?_
    rw [f4, List.getElem_replicate, tail]
    refine Finset.sum_eq_zero fun b _ => ?_
    rw [h0 b, envelope]
    split
    · ring
    · split <;> ring
  · rw [f4, tail]
    refine Finset.sum_eq_zero fun b _ => ?_
    have : k < d := by
      have h3 : (k : ℝ) < d := by have := f3.nearOnset.2; linarith
      exact_mod_cast h3
    rw [envelope, if_pos this, mul_zero]

/-- The envelope of a decaying band never exceeds the level of the band. -/
theorem envelope_bound {d a k : ℕ} {gain decay : ℝ} (hfs : 0 < fs) (hd : decay ≤ 0) : |envelope d a gain decay fs k| ≤ |gain| := by
  unfold envelope
  split
  · simp
  · rename_i h1
    have h1' : (d : ℝ) ≤ k := by exact_mod_cast Nat.le_of_not_lt h1
    split
    · rename_i h2
      have h2' : (k : ℝ) < d + a := by exact_mod_cast h2
      have ha : (0 : ℝ) < a := by linarith
      rw [abs_mul]
      refine mul_le_of_le_one_right (abs_nonneg _) ?_
      rw [abs_le]
      refine ⟨le_trans (by norm_num) (div_nonneg (by linarith) ha.le), ?_⟩
      rw [div_le_one ha]; linarith
    · rename_i h2
      have h2' : (d : ℝ) + a ≤ k := by exact_mod_cast Nat.le_of_not_lt h2
      rw [abs_mul]
      refine mul_le_of_le_one_right (abs_nonneg _) ?_
      rw [abs_of_pos (Real.exp_pos _), Real.exp_le_one_iff]
      exact mul_nonpos_of_nonpos_of_nonneg hd (div_nonneg (by linarith) hfs.le)

/-- **C64**, boundedness: with non-positive decay coefficients no tap exceeds the sum of the band levels times the largest value
of the noise. -/
theorem filter_bound {len : ℕ} {m : ℕ × Late} {f : ℕ × List ℝ} (hf : Realises align len fs raw m f) (hfs : 0 < fs)
    (hd : ∀ b, m.2.decays b ≤ 0) {peak : ℝ} (hp : ∀ b : Fin 9, ∀ k < len, |noise align raw m.1 b k| ≤ peak) :
    ∀ k (h : k < f.2.length), |f.2[k]| ≤ peak * ∑ b : Fin 9, |m.2.levels b| := by
  obtain ⟨f1, f2, d, a, f3, f4⟩ := hf
  intro k h
  rw [f4, tail, Finset.mul_sum]
  refine le_trans (Finset.abs_sum_le_sum_abs _ _) (Finset.sum_le_sum fun b _ => ?_)
  rw [abs_mul]
  have h1 := hp b k (f2 ▸ h)
  exact mul_le_mul h1 (envelope_bound hfs (hd b)) (abs_nonneg _) (le_trans (abs_nonneg _) h1)

/-- A message for a channel that does not exist is never removed: the call fails and leaves the queue as it is, so that no
later call sends anything. -/
theorem bad_channel_blocks (hc : create n seconds fs subBands maxUpdates align raw = .ok cfg) (s : State) (m : ℕ × Late)
    (ms : List (ℕ × Late)) (hq : s.queue = m :: ms) (hm : n ≤ m.1) (later : List (List (ℕ × Late))) :
    (process cfg s).2 = .throw .outOfRange ∧
    (later.foldl (fun t new => (process cfg ⟨t.queue ++ new, t.sent⟩).1) s).sent = s.sent := by
  obtain ⟨s1, -⟩ := create_spec hc
  have key : ∀ (t : State) ms', t.queue = m :: ms' → process cfg t = (t, .throw .outOfRange) := by
    intro t ms' ht
    unfold process
    rw [ht, processLoop, if_pos (by omega)]
    cases t
    simp_all
  refine ⟨by rw [key s ms hq], ?_⟩
  suffices ∀ t : State, (∃ ms', t.queue = m :: ms') →
      (later.foldl (fun t new => (process cfg ⟨t.queue ++ new, t.sent⟩).1) t).sent = t.sent from this s ⟨ms, hq⟩
  induction later with
  | nil => intro t _; rfl
  | cons x xs ih =>
    rintro t ⟨ms', ht⟩
    rw [List.foldl_cons, key ⟨t.queue ++ x, t.sent⟩ (ms' ++ x) (by simp [ht])]
    rw [ih _ ⟨ms' ++ x, by simp [ht]⟩]

/-- A negative onset (beyond half a sample) is converted to an unsigned integer: undefined behaviour. -/
theorem negative_onset_undefined (hc : create n seconds fs subBands maxUpdates align raw = .ok cfg) (obj : ℕ) (late : Late)
    (h : late.onset * fs ≤ -(1 / 2)) : calculate cfg obj late = .ub := by
  obtain ⟨-, s2, -⟩ := create_spec hc
  have hr : roundSamples (late.onset * cfg.fs) = .ub := by
    unfold roundSamples
    have hn : ¬ 0 ≤ late.onset * fs := by linarith
    simp only [s2, hn, if_false]
    rw [if_pos]
    left
    have : 1 ≤ ⌊-(late.onset * fs) + 1 / 2⌋ := Int.le_floor.2 (by push_cast; linarith)
    omega
  unfold calculate
  rw [bandLoop.eq_2]
  unfold createEnvelope
  rw [hr]

/-- If the onset and attack of a band do not fit into the filter, the calculation is reported as skipped, but the filter that is
sent contains the bands before it (instead of none, or all that fit). -/
theorem long_attack_truncates (hc : create n seconds fs subBands maxUpdates align raw = .ok cfg) (obj : ℕ) (late : Late) (d : ℕ)
    (a : Fin 9 → ℕ) (h0 : 0 ≤ late.onset * fs) (h1 : ∀ b, 0 ≤ late.attacks b * fs) (hd : Nearest (late.onset * fs) d)
    (ha : ∀ b, Nearest (late.attacks b * fs) (a b)) (b : Fin 9) (hlong : cfg.len ≤ d + a b) (hbig : d + a b < 2 ^ 64)
    (hbefore : ∀ c < b, d + a c < cfg.len) :
    calculate cfg obj late = .ok ((List.range cfg.len).map fun k =>
      ∑ c ∈ Finset.univ.filter (· < b), noise align raw obj c k * envelope d (a c) (late.levels c) (late.decays c) fs k) := by
  obtain ⟨-, s2, s3, s4, -⟩ := create_spec hc
  subst s2
  exact calculate_cut s3 s4 h0 h1 hd ha b hlong hbig hbefore

/-! ### Concrete cases -/

/-- Filters of one second at 48 Hz for two objects, one update per call. -/
noncomputable def demoCfg (raw : ℕ → ℕ → ℝ) : Cfg := ⟨2, 48, 1, 48, noiseRow 4 48 raw⟩

theorem demo_create (raw : ℕ → ℕ → ℝ) : create 2 1 48 9 1 4 raw = .ok (demoCfg raw) := by
  unfold create demoCfg
  have h : ⌈(1 : ℝ) * 48⌉ = 48 := by
    rw [show (1 : ℝ) * 48 = ((48 : ℤ) : ℝ) by norm_num, Int.ceil_intCast]
  have h9 : octaveBands.length = 9 := rfl
  simp [h9]

/-- Onset after 1/12 s, attack in half a second. -/
noncomputable def demoLate : Late := ⟨1 / 12, fun _ => 1, fun _ => -3, fun _ => 1 / 2⟩

theorem demo_fits : Fits 48 48 demoLate 4 (fun _ => 24) := by
  refine ⟨?_, ?_, ?_, ?_, ?_⟩ <;> simp [demoLate, Nearest] <;> norm_num

/-- One of two queued messages is processed. -/
example (raw : ℕ → ℕ → ℝ) : ∃ f, process (demoCfg raw) ⟨[(1, demoLate), (0, Late.silent)], []⟩ = (⟨[(0, Late.silent)], [f]⟩, .ok ()) ∧
    Realises 4 48 48 raw (1, demoLate) f := by
  obtain ⟨new, h1, h2⟩ := filters_sent (demo_create raw) (by norm_num) ⟨[(1, demoLate), (0, Late.silent)], []⟩ 1 rfl (by
    intro m hm
    simp only [List.take_succ_cons, List.take_zero, List.mem_singleton] at hm
    subst hm
    exact ⟨by norm_num, _, _, demo_fits⟩)
  simp only [List.take_succ_cons, List.take_zero] at h2
  cases h2 with
  | cons ha hb =>
    cases hb
    exact ⟨_, h1, ha⟩

/-- The response of a filter to a signal that begins at time `n`. -/
theorem iir_first (c : Biquad.Coef ℝ) (x : ℕ → ℝ) (n : ℕ) (h : ∀ j < n, x j = 0) : Biquad.iir (fun _ => c) x n = c.b0 * x n := by
  have hz : ∀ m, (∀ j < m, x j = 0) → ∀ j < m, Biquad.iir (fun _ => c) x j = 0 := by
    intro m
    induction m with
    | zero => intro _ j hj; omega
    | succ m ih =>
      intro hx j hj
      have ih' := ih fun i hi => hx i (by omega)
      rcases Nat.lt_succ_iff_lt_or_eq.1 hj with h1 | h1
      · exact ih' j h1
      · subst h1
        have hp : ∀ z : ℕ → ℝ, (∀ i < j, z i = 0) → ∀ i, 1 ≤ i → past z j i = 0 := by
          intro z hz i hi
          unfold past
          split
          · exact hz _ (by omega)
          · rfl
        rw [iir_past, hp x (fun i hi => hx i (by omega)) 1 (le_refl _), hp x (fun i hi => hx i (by omega)) 2 (by omega),
          hp _ ih' 1 (le_refl _), hp _ ih' 2 (by omega), hx j hj]
        ring
  have hp : ∀ z : ℕ → ℝ, (∀ i < n, z i = 0) → ∀ i, 1 ≤ i → past z n i = 0 := by
    intro z hz i hi
    unfold past
    split
    · exact hz _ (by omega)
    · rfl
  rw [iir_past, hp x h 1 (le_refl _), hp x h 2 (by omega), hp _ (hz n h) 1 (le_refl _), hp _ (hz n h) 2 (by omega)]
  ring

/-- Noise that starts with an impulse at the first sample used. -/
noncomputable def demoRaw (_ k : ℕ) : ℝ := if k = 20 then 1 else 0

/-- The second band needs an attack of two seconds. -/
noncomputable def demoLong : Late := ⟨0, fun _ => 1, fun _ => 0, fun b => if b = 1 then 2 else 0⟩

/-- A calculation reported as skipped that produces sound nevertheless: the filter of one band. -/
theorem skipped_filter_sounds : ∃ f, calculate (demoCfg demoRaw) 0 demoLong = .ok f ∧ f.getD 0 0 = 0.000016684780519 ∧
    ∀ d a, ¬ Fits 48 48 demoLong d a := by
  have hN : Nearest (0 : ℝ) 0 := by unfold Nearest; norm_num
  have hc := long_attack_truncates (demo_create demoRaw) 0 demoLong 0 (fun b => if b = 1 then 96 else 0)
    (by simp [demoLong]) (by intro b; simp only [demoLong]; split <;> norm_num) (by simpa [demoLong] using hN)
    (by intro b; simp only [demoLong]; split
        · unfold Nearest; norm_num
        · simpa using hN)
    1 (by simp [demoCfg]) (by norm_num)
    (by intro c hc
        have : c ≠ 1 := ne_of_lt hc
        simp [this, demoCfg])
  refine ⟨_, hc, ?_, ?_⟩
  · have hs : Finset.univ.filter (fun c : Fin 9 => c < 1) = {0} := by decide
    have he : extra 4 = 20 := by decide
    simp only [demoCfg]
    rw [hs]
    simp only [Finset.sum_singleton]
    rw [show (List.range 48) = 0 :: List.range' 1 47 by decide, List.map_cons, List.getD_cons_zero]
    rw [noise, he, iir_first _ _ _ (by intro j hj; simp only [demoRaw]; rw [if_neg (by omega)])]
    simp [demoRaw, envelope, demoLong, octaveBands]
  · intro d a hf
    have h1 := (hf.nearAttack 1).2
    have h2 := hf.short 1
    simp only [demoLong, if_true] at h1
    have h3 : (96 : ℝ) < a 1 + 1 / 2 := by linarith
    have h4 : (a 1 : ℝ) < 48 := by exact_mod_cast (show a 1 < 48 by omega)
    linarith

example : calculate (demoCfg demoRaw) 0 ⟨-1, fun _ => 1, fun _ => 0, fun _ => 0⟩ = .ub :=
  negative_onset_undefined (demo_create _) 0 _ (by norm_num)

example : (process (demoCfg demoRaw) ⟨[(2, demoLate), (0, demoLate)], []⟩).2 = .throw .outOfRange :=
  (bad_channel_blocks (demo_create _) ⟨[(2, demoLate), (0, demoLate)], []⟩ _ _ rfl (by norm_num) []).1

end Visr.LateFilter
