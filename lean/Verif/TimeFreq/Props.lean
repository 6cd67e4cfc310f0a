import Verif.TimeFreq.Lemmas
import Verif.Efl.Aligned

/-!
# Time-frequency analysis and overlap-add synthesis (C38)
-/

namespace Visr.TimeFreq
open Visr Visr.CircularBuffer Visr.Convolver Finset

variable {F : Type*}

theorem dvd_nextAlignedSize (n al : Nat) : al ∣ nextAlignedSize n al ∨ al = 0 := by
  by_cases h : al = 0
  · exact Or.inr h
  · left
    unfold nextAlignedSize
    rw [if_neg h]
    split_ifs with h'
    · exact Nat.dvd_of_mod_eq_zero h'
    · exact Dvd.intro_left _ rfl

/-- A configuration with which the analysis works: whole hops per period, a window of at least one hop and at most the size
of the transform, a transform not longer than window plus period, and hop, window and transform sizes that are multiples of
the vector alignment. -/
structure Config (align period dft winLen hop : Nat) : Prop where
  hopPos : 0 < hop
  periodPos : 0 < period
  whole : hop ∣ period
  win : hop ≤ winLen
  winDft : winLen ≤ dft
  dftMax : dft ≤ winLen + period
  alHop : align ∣ hop
  alWin : align ∣ winLen
  alDft : align ∣ dft

theorem create_good (align period channels dft : Nat) (window : List ℝ) (hop : Nat) (norm : Normalisation) (fft : Fft ℝ F)
    (h : Config align period dft window.length hop) (x : Nat → Nat → ℝ) :
    ∃ a, Analysis.create align period channels dft window hop norm fft = .ok a ∧ Good a (dft - hop) x 0 ∧
      a.align = align ∧ a.period = period ∧ a.channels = channels ∧ a.dft = dft ∧ a.winLen = window.length ∧
      a.frames = period / hop ∧ a.hop = hop ∧ a.fft = fft ∧
      a.window = fun i => (norm.factor dft / fft.fs) * window.getD i 0 := by
  obtain ⟨h1, h2, h3, h4, h5, h6, h7, h8, h9⟩ := h
  obtain ⟨q, hq⟩ := h3
  have hqpos : 0 < q := by
    rcases Nat.eq_zero_or_pos q with h | h
    · subst h; omega
    · exact h
  have hdiv : period / hop = q := by rw [hq]; exact Nat.mul_div_cancel_left _ h1
  have hqh : (q - 1) * hop + hop = period := by
    rw [hq]; obtain ⟨k, rfl⟩ : ∃ k, q = k + 1 := ⟨q - 1, by omega⟩
    simp; ring
  have hlen : (window.length + (period / hop - 1) * hop) = window.length + period - hop := by rw [hdiv]; omega
  have hal : align ∣ nextAlignedSize (window.length + (period / hop - 1) * hop) align := by
    rcases dvd_nextAlignedSize (window.length + (period / hop - 1) * hop) align with h | h
    · exact h
    · subst h
      have := Nat.eq_zero_of_zero_dvd h7
      omega
  have hr : Rep (CB.init channels (window.length + (period / hop - 1) * hop) align : CB ℝ) (fun _ => []) :=
    rep_init _ _ _ (by omega)
  simp only [Analysis.create]
  rw [if_neg (by omega), if_neg (by simp [hq])]
  by_cases hd : dft > hop
  · rw [if_pos hd]
    obtain ⟨b, e, hr', hc, hl⟩ := rep_write hr (fun _ _ => 0) (n := dft - hop)
      (by show dft - hop ≤ window.length + (period / hop - 1) * hop; omega)
    obtain ⟨hw, hA⟩ := write_pos e
    have e' : CB.write (CB.init channels (window.length + (period / hop - 1) * hop) align : CB ℝ) (fun _ _ => 0) channels
      (dft - hop) = .ok b := e
    rw [e']
    refine ⟨_, rfl, ⟨?_, hc, ?_, ?_, ?_, fun _ _ => rfl⟩, rfl, rfl, rfl, rfl, rfl, rfl, rfl, rfl, rfl⟩
    · show Rep b (written (dft - hop) x (0 * period))
      have : written (dft - hop) x (0 * period) = fun ch => [] ++ (List.range (dft - hop)).map (fun _ => (0 : ℝ)) := by
        funext ch
        simp [written]
      rw [this]
      exact hr'
    · exact hl
    · show align ∣ b.alloc
      rw [hA]; exact hal
    · show align ∣ b.w
      rw [hw]
      exact (Nat.dvd_mod_iff hal).mpr (Nat.dvd_add (Nat.dvd_zero _) (Nat.dvd_sub h9 h7))
  · rw [if_neg hd]
    refine ⟨_, rfl, ⟨?_, rfl, rfl, hal, Nat.dvd_zero _, fun _ _ => rfl⟩, rfl, rfl, rfl, rfl, rfl, rfl, rfl, rfl, rfl⟩
    show Rep (CB.init channels _ align) (written (dft - hop) x (0 * period))
    have : written (dft - hop) x (0 * period) = fun _ => [] := by
      funext ch
      have : dft - hop = 0 := by omega
      simp [written, this]
    rw [this]
    exact hr

theorem frameInput_eq (a : Analysis F) (window : List ℝ) (hop period : Nat) (g : ℝ) (pad : Nat) (x : Nat → Nat → ℝ)
    (k f ch : Nat) (hW : a.winLen = window.length) (hh : a.hop = hop) (hF : a.frames = period / hop)
    (hp : hop ∣ period) (hpos : 0 < hop) (hf : f < period / hop)
    (hw : a.window = fun i => g * window.getD i 0) :
    frameInput a (written pad x ((k + 1) * period)) f ch =
      fun i => g * section' window hop (x ch) (k * (period / hop) + f) i := by
  obtain ⟨q, hq⟩ := hp
  have hdiv : period / hop = q := by rw [hq]; exact Nat.mul_div_cancel_left _ hpos
  rw [hdiv] at hF hf ⊢
  funext i
  unfold frameInput section'
  rw [hW, hh, hF, hw]
  by_cases hi : i < window.length
  · rw [if_pos hi, if_pos hi, past_written _ _ _ _ _ (by omega)]
    have : (((k + 1) * period : Nat) : ℤ) - ((window.length + (q - f - 1) * hop - i : Nat) : ℤ) =
        (((k * q + f + 1) * hop : Nat) : ℤ) - (window.length : ℤ) + i := by
      obtain ⟨r, rfl⟩ : ∃ r, q = f + 1 + r := ⟨q - f - 1, by omega⟩
      rw [show f + 1 + r - f - 1 = r by omega, Nat.cast_sub (by omega), hq]
      push_cast
      ring
    rw [this]
    ring
  · rw [if_neg hi, if_neg hi, mul_zero]

/-! ## C38: analysis -/

/-- C38 (analysis): for every configuration, window, normalisation and input and every number of processing periods, the
component works, and frame `f` of period `k` of every channel is the transform of the section of the input that ends with
hop number `k * framesPerPeriod + f`, multiplied by the window and zero-padded to the transform size, with the requested
normalisation in place of the factor of the FFT library. -/
theorem analysis_frames (align period channels dft : Nat) (window : List ℝ) (hop : Nat) (norm : Normalisation)
    (fft : Fft ℝ F) (h : Config align period dft window.length hop) (x : Nat → Nat → ℝ)
    (old : Nat → Nat → Nat → Nat → F) :
    ∃ a, Analysis.create align period channels dft window hop norm fft = .ok a ∧
      ∀ n, ∃ a' outs, a.run x old n = .ok (a', outs) ∧
        ∀ k < n, ∀ f < period / hop, ∀ ch < channels, outs k f ch =
          fft.fwd (fun i => (norm.factor dft / fft.fs) * section' window hop (x ch) (k * (period / hop) + f) i) := by
  obtain ⟨a, e, g, q1, q2, q3, q4, q5, q6, q7, q8, q9⟩ := create_good align period channels dft window hop norm fft h x
  refine ⟨a, e, fun n => ?_⟩
  have hdm := Nat.div_mul_cancel h.whole
  have hpos : 0 < period / hop := Nat.div_pos (Nat.le_of_dvd h.periodPos h.whole) h.hopPos
  obtain ⟨a', outs, e', _, _, o, _⟩ := run_analysis a (dft - hop) x old g (by have := h.winDft; omega)
    (by have := h.win; omega) (by rw [q2, q6, q7, hdm]) (by omega) (by rw [q1, q7]; exact h.alHop)
    (by rw [q1, q5]; exact h.alWin) n
  refine ⟨a', outs, e', ?_⟩
  intro k hk f hf ch hch
  rw [o k hk f (by omega) ch (by omega), q8, q2,
    frameInput_eq a window hop period _ (dft - hop) x k f ch q5 q7 q6 h.whole h.hopPos hf q9]

/-- Non-vacuity: two hops of 16 samples per period, a window of 32 samples and a zero-padded transform of 64 samples, with
the vector alignment of 16 samples of the library. -/
example : Config 16 32 64 (List.replicate 32 (1 : ℝ)).length 16 :=
  ⟨by decide, by decide, by decide, by simp, by simp, by simp, by decide, by simp, by decide⟩

/-- The second frame of the first period ends with the last sample of that period; the first frame still contains silence
from before the start. -/
example : let x : Nat → ℝ := fun t => t + 1
    section' [1, 1, 1] 2 x 1 0 = 2 ∧ section' [1, 1, 1] 2 x 1 2 = 4 ∧ section' [1, 1, 1] 2 x 0 0 = 0 ∧
      section' [1, 1, 1] 2 x 0 1 = 1 := by
  have : ((3 : ℤ).toNat : ℝ) = 3 := by rw [show (3 : ℤ).toNat = 3 from rfl]; norm_num
  norm_num [section', at', this]

/-! ## C38: synthesis -/

/-- C38 (synthesis, one hop per period; with several it is false): for every sequence of frames, the output is the overlap-add of the inverse transforms
of all frames, frame `m` starting at time `m * hop`. -/
theorem synthesis_one_hop_partial (channels dft hop : Nat) (norm : Normalisation) (fft : Fft ℝ F) (hhop : 0 < hop) (hd : hop ≤ dft)
    (X : Nat → Nat → Nat → Nat → F) (old : Nat → Nat → Nat → ℝ) :
    ∃ s, Synthesis.create hop channels dft hop norm fft = .ok s ∧
      ∀ n, ∃ s' outs, s.run X old n = .ok (s', outs) ∧
        ∀ k < n, ∀ ch < channels, ∀ i < hop, ∀ M > k, outs k ch i = (norm.factor dft / fft.is) *
          overlapAdd dft hop (fun m => fft.inv (X m 0 ch)) M (k * hop + i) := by
  refine ⟨_, by simp only [Synthesis.create]; rw [if_neg (by omega), if_neg (by omega), if_neg (by simp)], fun n => ?_⟩
  obtain ⟨s', outs, e, _, _, o, _⟩ := run_synthesis
    { period := hop, channels, dft, frames := hop / hop, hop, fft, acc := fun _ _ => 0, work := fun _ => 0,
      scale := norm.factor dft / fft.is } X old hd (by show 0 < hop / hop; rw [Nat.div_self hhop]; omega)
    (fun _ _ => rfl) n
  refine ⟨s', outs, e, ?_⟩
  intro k hk ch hch i hi M hM
  rw [o k hk ch hch i hi]
  simp only [Nat.div_self hhop, Nat.div_one, Nat.mod_one, Nat.mul_one, Nat.add_sub_cancel]
  congr 1
  unfold overlapAdd
  obtain ⟨d, rfl⟩ : ∃ d, M = k + 1 + d := ⟨M - (k + 1), by omega⟩
  rw [sum_range_add _ (k + 1) d]
  conv_lhs => rw [← add_zero (∑ m ∈ range (k + 1), _)]
  congr 1
  symm
  apply sum_eq_zero
  intro m _
  rw [if_neg]
  rintro ⟨h, _⟩
  have : (k + 1) * hop ≤ (k + 1 + m) * hop := Nat.mul_le_mul_right _ (by omega)
  rw [Nat.add_mul k 1] at this
  omega

/-- What the synthesis does with any number of hops per period: of the frames of a period only the buffer of the last one is
delivered, that is, the overlap-add signal from the start of the last frame on, without the frames still to come. -/
theorem synthesis_several_hops (channels dft hop frames : Nat) (norm : Normalisation) (fft : Fft ℝ F) (hhop : 0 < hop)
    (hF : 0 < frames) (hd : frames * hop ≤ dft) (X : Nat → Nat → Nat → Nat → F) (old : Nat → Nat → Nat → ℝ) :
    ∃ s, Synthesis.create (frames * hop) channels dft hop norm fft = .ok s ∧
      ∀ n, ∃ s' outs, s.run X old n = .ok (s', outs) ∧
        ∀ k < n, ∀ ch < channels, ∀ i < frames * hop, outs k ch i = (norm.factor dft / fft.is) *
          overlapAdd dft hop (fun m => fft.inv (X (m / frames) (m % frames) ch)) ((k + 1) * frames)
            (((k + 1) * frames - 1) * hop + i) := by
  have hle : hop ≤ frames * hop := Nat.le_mul_of_pos_left _ hF
  have hdiv : frames * hop / hop = frames := Nat.mul_div_cancel _ hhop
  refine ⟨_, by
    simp only [Synthesis.create]; rw [if_neg (by omega), if_neg (by omega), if_neg (by simp)], fun n => ?_⟩
  obtain ⟨s', outs, e, _, _, o, _⟩ := run_synthesis
    { period := frames * hop, channels, dft, frames := frames * hop / hop, hop, fft, acc := fun _ _ => 0,
      work := fun _ => 0, scale := norm.factor dft / fft.is } X old hd (by show 0 < frames * hop / hop; omega)
    (fun _ _ => rfl) n
  refine ⟨s', outs, e, ?_⟩
  intro k hk ch hch i hi
  rw [o k hk ch hch i hi]
  simp only [hdiv]

/-- Negation of C38 for several hops per period: for every number of hops above one, every transform with room for the period
and every FFT pair that can produce a unit impulse and silence, there is a sequence of frames for which the first output
sample is not the overlap-add of the frames: the impulse in the first frame is lost. -/
theorem several_hops_lose_samples (channels dft hop frames : Nat) (norm : Normalisation) (fft : Fft ℝ F) (hhop : 0 < hop)
    (hF : 1 < frames) (hd : frames * hop ≤ dft) (hch : 0 < channels) (hs : norm.factor dft / fft.is ≠ 0)
    (impulse silence : Nat → F) (h1 : ∀ n < dft, fft.inv impulse n = if n = 0 then 1 else 0)
    (h0 : ∀ n < dft, fft.inv silence n = 0) (old : Nat → Nat → Nat → ℝ) :
    ∃ (X : Nat → Nat → Nat → Nat → F) (s s' : Synthesis F) (outs : Nat → Nat → Nat → ℝ),
      Synthesis.create (frames * hop) channels dft hop norm fft = .ok s ∧ s.run X old 1 = .ok (s', outs) ∧
      outs 0 0 0 = 0 ∧
      (norm.factor dft / fft.is) * overlapAdd dft hop (fun m => fft.inv (X (m / frames) (m % frames) 0)) frames 0 ≠ 0 := by
  obtain ⟨s, e, h⟩ := synthesis_several_hops channels dft hop frames norm fft hhop (by omega) hd
    (fun k f _ => if k = 0 ∧ f = 0 then impulse else silence) old
  obtain ⟨s', outs, e', o⟩ := h 1
  have hpos : 0 < frames * hop := Nat.mul_pos (by omega) hhop
  have hX : ∀ m < frames, ∀ n < dft, fft.inv (if m / frames = 0 ∧ m % frames = 0 then impulse else silence) n =
      if m = 0 ∧ n = 0 then 1 else 0 := by
    intro m hm n hn
    rw [Nat.div_eq_of_lt hm, Nat.mod_eq_of_lt hm]
    by_cases hm0 : m = 0
    · simp only [hm0]; simp [h1 n hn]
    · simp only [hm0]; simp [h0 n hn]
  refine ⟨_, s, s', outs, e, e', ?_, ?_⟩
  · rw [o 0 (by omega) 0 hch 0 hpos]
    rw [show overlapAdd dft hop _ ((0 + 1) * frames) _ = (0 : ℝ) from ?_, mul_zero]
    unfold overlapAdd
    apply sum_eq_zero
    intro m hm
    rw [mem_range] at hm
    split_ifs with hc
    · refine (hX m (by omega) _ hc.2).trans ?_
      rw [if_neg]
      rintro ⟨rfl, h⟩
      have : 0 < (frames - 1) * hop := Nat.mul_pos (by omega) hhop
      simp only [Nat.zero_add, Nat.one_mul, Nat.zero_mul, Nat.sub_zero, Nat.add_zero] at h
      omega
    · rfl
  · apply mul_ne_zero hs
    rw [show overlapAdd dft hop _ frames 0 = (1 : ℝ) from ?_]
    · exact one_ne_zero
    unfold overlapAdd
    rw [sum_eq_single_of_mem 0 (by rw [mem_range]; omega)]
    · rw [if_pos ⟨by omega, by omega⟩]
      refine (hX 0 (by omega) _ (by omega)).trans ?_
      simp
    · intro m hm hm0
      rw [mem_range] at hm
      split_ifs with hc
      · refine (hX m (by omega) _ (by omega)).trans ?_
        rw [if_neg (fun h => hm0 h.1)]
      · rfl

/-- If the period does not fit into the transform, the synthesis reads behind its work buffer. -/
theorem long_period_ub (channels dft hop frames : Nat) (norm : Normalisation) (fft : Fft ℝ F) (hhop : 0 < hop)
    (hd : hop ≤ dft) (hp : dft < frames * hop) (hch : 0 < channels) (X : Nat → Nat → Nat → F) (old : Nat → Nat → ℝ) :
    ∃ s, Synthesis.create (frames * hop) channels dft hop norm fft = .ok s ∧ s.process X old = .ub := by
  refine ⟨_, by
    simp only [Synthesis.create]; rw [if_neg (by omega), if_neg (by omega), if_neg (by simp)], ?_⟩
  obtain ⟨c, rfl⟩ : ∃ c, channels = c + 1 := ⟨channels - 1, by omega⟩
  simp only [Synthesis.process, List.range_succ_eq_map, Synthesis.channelLoop]
  rw [if_pos hp]

/-! ## C38: analysis followed by synthesis -/

theorem sum_window (window : List ℝ) (hop i M : Nat) (c : ℝ) (hhop : 0 < hop) (hi : i < hop) (hc : Cola window hop c)
    (hM : window.length ≤ M * hop + i) : ∑ r ∈ range M, window.getD (r * hop + i) 0 = c := by
  rw [← hc i hi]
  have hz : ∀ r, window.length ≤ r * hop + i → window.getD (r * hop + i) 0 = 0 := by
    intro r hr
    rw [List.getD_eq_getElem?_getD, List.getElem?_eq_none hr]; rfl
  have hbig : ∀ r, M ≤ r → window.length ≤ r * hop + i := by
    intro r hr
    have := Nat.mul_le_mul_right hop hr
    omega
  rcases Nat.le_total M window.length with h | h
  · apply sum_subset (range_mono h)
    intro r _ hr
    rw [mem_range] at hr
    exact hz r (hbig r (by omega))
  · symm
    apply sum_subset (range_mono h)
    intro r _ hr
    rw [mem_range] at hr
    apply hz
    have : r * 1 ≤ r * hop := Nat.mul_le_mul_left _ hhop
    omega

/-- C38 (reconstruction; missing: several hops per period, where it is false): with one hop per period and a window with the constant overlap-add property (the window values a
hop apart add up to `c`), analysis followed by synthesis reproduces every input signal exactly, delayed by the overlap
`windowLength - hop` and scaled by `c` and the two normalisation factors times the transform size. -/
theorem reconstruction_partial (align channels dft : Nat) (window : List ℝ) (hop : Nat) (c : ℝ) (na ns : Normalisation)
    (fft : Fft ℝ F) (hfft : Inverts dft fft) (h : Config align hop dft window.length hop) (hc : Cola window hop c)
    (x : Nat → Nat → ℝ) (oldA : Nat → Nat → Nat → Nat → F) (oldS : Nat → Nat → Nat → ℝ) :
    ∃ a s, Analysis.create align hop channels dft window hop na fft = .ok a ∧
      Synthesis.create hop channels dft hop ns fft = .ok s ∧
      ∀ n, ∃ a' frames s' outs, a.run x oldA n = .ok (a', frames) ∧ s.run frames oldS n = .ok (s', outs) ∧
        ∀ k < n, ∀ ch < channels, ∀ i < hop, outs k ch i =
          c * (na.factor dft * ns.factor dft * dft) * at' (x ch) ((k * hop + i : Nat) - (window.length - hop : Nat)) := by
  obtain ⟨a, ea, ha⟩ := analysis_frames align hop channels dft window hop na fft h x oldA
  have hdft := h.winDft
  have hwin := h.win
  have hhop := h.hopPos
  have hdiv : hop / hop = 1 := Nat.div_self hhop
  obtain ⟨s, es, _⟩ := synthesis_one_hop_partial channels dft hop ns fft hhop (by omega) (fun _ => oldA 0) oldS
  refine ⟨a, s, ea, es, fun n => ?_⟩
  obtain ⟨a', frames, e1, o1⟩ := ha n
  obtain ⟨s2, es2, hs⟩ := synthesis_one_hop_partial channels dft hop ns fft hhop (by omega) frames oldS
  rw [es] at es2
  injection es2 with es2
  subst es2
  obtain ⟨s', outs, e2, o2⟩ := hs n
  refine ⟨a', frames, s', outs, e1, e2, ?_⟩
  intro k hk ch hch i hi
  rw [o2 k hk ch hch i hi (k + 1) (by omega)]
  have key : overlapAdd dft hop (fun m => fft.inv (frames m 0 ch)) (k + 1) (k * hop + i) =
      ∑ r ∈ range (k + 1), (fft.fs * fft.is * dft) * (na.factor dft / fft.fs) *
        (at' (x ch) ((k * hop + i : Nat) - (window.length - hop : Nat)) * window.getD (r * hop + i) 0) := by
    unfold overlapAdd
    rw [← sum_range_reflect]
    apply sum_congr rfl
    intro r hr
    rw [mem_range] at hr
    obtain ⟨d, hd⟩ : ∃ d, k = r + d := ⟨k - r, by omega⟩
    have hkr : k + 1 - 1 - r = d := by omega
    rw [hkr]
    have hmul : k * hop = r * hop + d * hop := by rw [hd]; ring
    have hle : k * hop + i - d * hop = r * hop + i := by omega
    rw [hle]
    by_cases hlt : r * hop + i < dft
    · rw [if_pos ⟨by omega, hlt⟩]
      show fft.inv (frames d 0 ch) (r * hop + i) = _
      rw [o1 d (by omega) 0 (by omega) ch hch, hfft.inv_fwd _ _ hlt, hdiv]
      unfold section'
      by_cases hw : r * hop + i < window.length
      · rw [if_pos hw]
        have : (((d * 1 + 0 + 1) * hop : Nat) : ℤ) - (window.length : ℤ) + (r * hop + i : Nat) =
            ((k * hop + i : Nat) : ℤ) - ((window.length - hop : Nat) : ℤ) := by
          rw [Nat.cast_sub hwin, hmul]; push_cast; ring
        rw [this]; ring
      · rw [if_neg hw, List.getD_eq_getElem?_getD, List.getElem?_eq_none (by omega)]
        simp
    · rw [if_neg (fun h => hlt h.2), List.getD_eq_getElem?_getD, List.getElem?_eq_none (by omega)]
      simp
  rw [key, ← mul_sum, ← mul_sum]
  by_cases ht : (0 : ℤ) ≤ (k * hop + i : Nat) - (window.length - hop : Nat)
  · have hM : window.length ≤ (k + 1) * hop + i := by rw [Nat.add_mul, Nat.one_mul]; omega
    rw [sum_window window hop i (k + 1) c hhop hi hc hM]
    have h1 := hfft.fs
    have h2 := hfft.is
    field_simp
  · have : at' (x ch) ((k * hop + i : Nat) - (window.length - hop : Nat)) = 0 := by
      unfold at'; rw [if_neg ht]
    rw [this]; ring

/-- The overall gain is one for the pairs of normalisations the documentation names. -/
theorem matching_normalisations (dft : Nat) (h : 0 < dft) :
    Normalisation.one.factor dft * Normalisation.oneOverN.factor dft * dft = 1 ∧
    Normalisation.oneOverN.factor dft * Normalisation.one.factor dft * dft = 1 ∧
    Normalisation.unitary.factor dft * Normalisation.unitary.factor dft * dft = 1 := by
  have h' : (0 : ℝ) < dft := by exact_mod_cast h
  have hs : Real.sqrt dft * Real.sqrt dft = dft := Real.mul_self_sqrt h'.le
  have hs0 : Real.sqrt dft ≠ 0 := (Real.sqrt_pos.mpr h').ne'
  refine ⟨?_, ?_, ?_⟩ <;> simp only [Normalisation.factor]
  · field_simp
  · field_simp
  · rw [div_mul_div_comm, hs]; field_simp

/-- The default arguments of the two components (`Unitary` for the analysis, `OneOverN` for the synthesis) do not match: the
overall gain is one over the square root of the transform size. -/
theorem default_normalisations (dft : Nat) (h : 0 < dft) :
    Normalisation.unitary.factor dft * Normalisation.oneOverN.factor dft * dft = 1 / Real.sqrt dft := by
  have h' : (dft : ℝ) ≠ 0 := by positivity
  simp only [Normalisation.factor]
  field_simp

/-- The default window has the constant overlap-add property for every number of overlapping frames above one; the values
add up to half that number. -/
theorem hann_cola (hop overlap : Nat) (hhop : 0 < hop) (ho : 1 < overlap) :
    Cola (unityHannWindow (overlap * hop)) hop (overlap / 2) := by
  have ho' : (overlap : ℝ) ≠ 0 := by positivity
  have hh' : (hop : ℝ) ≠ 0 := by positivity
  intro i hi
  have hlen : (unityHannWindow (overlap * hop)).length = overlap * hop := by simp [unityHannWindow]
  have hval : ∀ r < overlap, (unityHannWindow (overlap * hop)).getD (r * hop + i) 0 =
      0.5 - 0.5 * Real.cos (2 * Real.pi * r / overlap + 2 * Real.pi * i / (overlap * hop)) := by
    intro r hr
    have : (r + 1) * hop ≤ overlap * hop := Nat.mul_le_mul_right _ hr
    rw [Nat.add_mul] at this
    rw [List.getD_eq_getElem?_getD, unityHannWindow, List.getElem?_map, List.getElem?_range (by omega)]
    simp only [Option.map_some, Option.getD_some]
    congr 3
    push_cast
    field_simp
  rw [hlen, ← sum_subset (range_mono (show overlap ≤ overlap * hop from Nat.le_mul_of_pos_right _ hhop))]
  · rw [sum_congr rfl (fun r hr => hval r (mem_range.mp hr)), sum_sub_distrib, ← mul_sum]
    have hcos : ∑ r ∈ range overlap, Real.cos (2 * Real.pi * r / overlap + 2 * Real.pi * i / (overlap * hop)) = 0 := by
      have hdvd : ¬ (overlap : ℤ) ∣ 1 := by
        intro h
        have := Int.le_of_dvd one_pos h
        omega
      have hc := sum_cos overlap (by omega) 1
      rw [if_neg hdvd] at hc
      have hs := sum_sin overlap (by omega)
      simp only [Real.cos_add, sum_sub_distrib, ← sum_mul]
      have hc' : ∑ r ∈ range overlap, Real.cos (2 * Real.pi * r / overlap) = 0 := by
        rw [← hc]; apply sum_congr rfl; intro r _; simp
      rw [hc', hs]; ring
    rw [hcos]
    simp
    ring
  · intro r _ hr
    rw [mem_range] at hr
    have : overlap * hop ≤ r * hop := Nat.mul_le_mul_right _ (by omega)
    rw [List.getD_eq_getElem?_getD, List.getElem?_eq_none (by omega)]; rfl

/-- With the default window, half overlap and matching normalisations the input comes back unchanged, one hop later. -/
theorem hann_half_overlap (align channels dft hop : Nat) (fft : Fft ℝ F) (hfft : Inverts dft fft) (hd : 0 < dft)
    (h : Config align hop dft (2 * hop) hop) (x : Nat → Nat → ℝ) (oldA : Nat → Nat → Nat → Nat → F)
    (oldS : Nat → Nat → Nat → ℝ) :
    ∃ a s, Analysis.createHann align hop channels dft (2 * hop) hop .unitary fft = .ok a ∧
      Synthesis.create hop channels dft hop .unitary fft = .ok s ∧
      ∀ n, ∃ a' frames s' outs, a.run x oldA n = .ok (a', frames) ∧ s.run frames oldS n = .ok (s', outs) ∧
        ∀ k < n, ∀ ch < channels, ∀ i < hop, outs k ch i = at' (x ch) ((k * hop + i : Nat) - (hop : ℤ)) := by
  have hlen : (unityHannWindow (2 * hop)).length = 2 * hop := by simp [unityHannWindow]
  obtain ⟨a, s, e1, e2, hr⟩ := reconstruction_partial align channels dft (unityHannWindow (2 * hop)) hop 1 .unitary .unitary fft
    hfft (by rw [hlen]; exact h) (by have := hann_cola hop 2 h.hopPos (by omega); simpa using this) x oldA oldS
  refine ⟨a, s, e1, e2, fun n => ?_⟩
  obtain ⟨a', frames, s', outs, q1, q2, o⟩ := hr n
  refine ⟨a', frames, s', outs, q1, q2, ?_⟩
  intro k hk ch hch i hi
  rw [o k hk ch hch i hi, (matching_normalisations dft hd).2.2, hlen, show 2 * hop - hop = hop by omega]
  ring

/-! ## C38: configurations that do not work -/

/-- A hop of zero samples is a division by zero in both constructors, although it is meant to be rejected. -/
theorem zero_hop_ub (align period channels dft : Nat) (window : List ℝ) (norm : Normalisation) (fft : Fft ℝ F) :
    Analysis.create align period channels dft window 0 norm fft = .ub ∧
    Synthesis.create period channels dft 0 norm fft = .ub := by
  simp [Analysis.create, Synthesis.create]

/-- A period that is not a multiple of the hop is rejected by both constructors. -/
theorem broken_hop_rejected (align period channels dft hop : Nat) (window : List ℝ) (norm : Normalisation) (fft : Fft ℝ F)
    (hhop : 0 < hop) (h : ¬ hop ∣ period) :
    Analysis.create align period channels dft window hop norm fft = .throw .logicError ∧
    (hop ≤ dft → Synthesis.create period channels dft hop norm fft = .throw .invalidArgument) := by
  have h' : period % hop ≠ 0 := fun e => h (Nat.dvd_of_mod_eq_zero e)
  constructor
  · simp only [Analysis.create]; rw [if_neg (by omega), if_pos h']
  · intro hd; simp only [Synthesis.create]; rw [if_neg (by omega), if_neg (by omega), if_pos h']

/-- Strong zero padding is impossible: if the transform is longer than window plus period, the constructor throws, because it
writes more zeros to the input buffer than the buffer holds. -/
theorem long_transform_rejected (align channels dft hop frames : Nat) (window : List ℝ) (norm : Normalisation)
    (fft : Fft ℝ F) (hhop : 0 < hop) (hF : 0 < frames) (hd : window.length + frames * hop < dft) :
    Analysis.create align (frames * hop) channels dft window hop norm fft = .throw .invalidArgument := by
  have hdiv : frames * hop / hop = frames := Nat.mul_div_cancel _ hhop
  have hfr : frames * hop = (frames - 1) * hop + hop := by
    obtain ⟨k, rfl⟩ : ∃ k, frames = k + 1 := ⟨frames - 1, by omega⟩
    simp; ring
  simp only [Analysis.create, hdiv]
  rw [if_neg (by omega), if_neg (by simp), if_pos (by omega)]
  simp only [CB.write]
  rw [if_neg (by simp [CB.init]), if_pos (by show window.length + (frames - 1) * hop < _; omega)]

/-- With a window shorter than the hop the component is created, but every call of `process` throws. -/
theorem short_window_throws (align channels dft hop frames : Nat) (window : List ℝ) (norm : Normalisation)
    (fft : Fft ℝ F) (hhop : 0 < hop) (hF : 0 < frames) (hw : window.length < hop) (hd : dft ≤ hop)
    (input : Nat → Nat → ℝ) (old : Nat → Nat → Nat → F) :
    ∃ a, Analysis.create align (frames * hop) channels dft window hop norm fft = .ok a ∧
      a.process input old = .throw .invalidArgument := by
  have hdiv : frames * hop / hop = frames := Nat.mul_div_cancel _ hhop
  have hfr : frames * hop = (frames - 1) * hop + hop := by
    obtain ⟨k, rfl⟩ : ∃ k, frames = k + 1 := ⟨frames - 1, by omega⟩
    simp; ring
  refine ⟨_, by simp only [Analysis.create]; rw [if_neg (by omega), if_neg (by simp), if_neg (by omega)], ?_⟩
  simp only [Analysis.process, CB.write]
  rw [if_neg (by simp [CB.init]), if_pos (by
    show window.length + (frames * hop / hop - 1) * hop < frames * hop
    rw [hdiv]; omega)]

/-- A window longer than the transform is accepted; the first call of `process` writes behind the work buffer. -/
theorem long_window_ub (align channels dft hop : Nat) (window : List ℝ) (norm : Normalisation) (fft : Fft ℝ F)
    (hhop : 0 < hop) (hw : dft < window.length) (hhw : hop ≤ window.length) (hd : dft ≤ hop) (hch : 0 < channels)
    (hal1 : align ∣ hop) (hal2 : align ∣ window.length) (input : Nat → Nat → ℝ) (old : Nat → Nat → Nat → F) :
    ∃ a, Analysis.create align hop channels dft window hop norm fft = .ok a ∧ a.process input old = .ub := by
  have hdiv : hop / hop = 1 := Nat.div_self hhop
  refine ⟨_, by simp only [Analysis.create]; rw [if_neg (by omega), if_neg (by simp), if_neg (by omega)], ?_⟩
  have hr : Rep (CB.init channels (window.length + (hop / hop - 1) * hop) align : CB ℝ) (fun _ => []) :=
    rep_init _ _ _ (by omega)
  obtain ⟨b, e, hr', hc, hl⟩ := rep_write hr input (n := hop) (by
    show hop ≤ window.length + (hop / hop - 1) * hop; omega)
  obtain ⟨hw', hA⟩ := write_pos e
  have e' : CB.write (CB.init channels (window.length + (hop / hop - 1) * hop) align : CB ℝ) input channels hop = .ok b := e
  simp only [Analysis.process]
  rw [e']
  obtain ⟨c, rfl⟩ : ∃ c, channels = c + 1 := ⟨channels - 1, by omega⟩
  simp only [hdiv, indices, List.flatMap_cons, List.range_succ_eq_map, List.map_cons, List.cons_append,
    Analysis.loop, Analysis.windowing]
  have hal : align ∣ nextAlignedSize (window.length + (hop / hop - 1) * hop) align := by
    rcases dvd_nextAlignedSize (window.length + (hop / hop - 1) * hop) align with h | h
    · exact h
    · subst h
      have := Nat.eq_zero_of_zero_dvd hal1
      omega
  have hbA : align ∣ b.alloc := by rw [hA]; exact hal
  have hbW : align ∣ b.w := by
    rw [hw']
    exact (Nat.dvd_mod_iff hal).mpr (Nat.dvd_add (Nat.dvd_zero _) hal1)
  rw [if_neg, if_pos hw]
  rintro ⟨_, h⟩
  apply h
  apply Nat.mod_eq_zero_of_dvd
  exact Nat.dvd_sub (Nat.dvd_add hbA hbW) (Nat.dvd_add hal2 (Dvd.dvd.mul_left hal1 _))

/-- A window length that is not a multiple of the vector alignment (while hop and transform size are) is accepted by the
constructor, but every first call of `process` throws, because the windowed section is not aligned. -/
theorem unaligned_window_throws (align period channels dft hop : Nat) (window : List ℝ) (norm : Normalisation)
    (fft : Fft ℝ F) (hhop : 0 < hop) (hp : 0 < period) (hw : hop ∣ period) (hwin : hop ≤ window.length)
    (hdft : dft ≤ window.length + period) (hal1 : align ∣ hop) (hal2 : ¬ align ∣ window.length) (hal3 : align ∣ dft)
    (hch : 0 < channels) (input : Nat → Nat → ℝ) (old : Nat → Nat → Nat → F) :
    ∃ a, Analysis.create align period channels dft window hop norm fft = .ok a ∧
      a.process input old = .throw .runtimeError := by
  obtain ⟨q, hq⟩ := hw
  have hqpos : 0 < q := by
    rcases Nat.eq_zero_or_pos q with h | h
    · subst h; omega
    · exact h
  have hal0 : align ≠ 0 := by
    rintro rfl
    have := Nat.eq_zero_of_zero_dvd hal1
    omega
  have hdiv : period / hop = q := by rw [hq]; exact Nat.mul_div_cancel_left _ hhop
  have hqh : (q - 1) * hop + hop = period := by
    rw [hq]; obtain ⟨k, rfl⟩ : ∃ k, q = k + 1 := ⟨q - 1, by omega⟩
    simp; ring
  have hqd : (period / hop - 1) * hop + hop = period := by rw [hdiv]; exact hqh
  have hr : Rep (CB.init channels (window.length + (period / hop - 1) * hop) align : CB ℝ) (fun _ => []) :=
    rep_init _ _ _ (by omega)
  have hal : align ∣ nextAlignedSize (window.length + (period / hop - 1) * hop) align := by
    rcases dvd_nextAlignedSize (window.length + (period / hop - 1) * hop) align with h | h
    · exact h
    · exact absurd h hal0
  have hle : window.length + (period / hop - 1) * hop ≤ nextAlignedSize (window.length + (period / hop - 1) * hop) align :=
    le_nextAlignedSize _ _
  -- the buffer before the first call
  have hcreate : ∃ b sig, Rep b sig ∧ b.channels = channels ∧ b.length = window.length + (period / hop - 1) * hop ∧
      b.alloc = nextAlignedSize (window.length + (period / hop - 1) * hop) align ∧ align ∣ b.w ∧
      Analysis.create align period channels dft window hop norm fft = .ok
        { align, period, channels, dft, winLen := window.length, frames := period / hop, hop, fft, buf := b
          window := fun i => (norm.factor dft / fft.fs) * window.getD i 0
          work := fun _ => 0 } := by
    simp only [Analysis.create]
    rw [if_neg (by omega), if_neg (by simp [hq])]
    by_cases hd : dft > hop
    · obtain ⟨b, e, hr', hc, hl⟩ := rep_write hr (fun _ _ => 0) (n := dft - hop)
        (by show dft - hop ≤ window.length + (period / hop - 1) * hop; omega)
      obtain ⟨hw', hA⟩ := write_pos e
      have e' : CB.write (CB.init channels (window.length + (period / hop - 1) * hop) align : CB ℝ) (fun _ _ => 0) channels
        (dft - hop) = .ok b := e
      rw [if_pos hd, e']
      refine ⟨b, _, hr', hc, hl, hA, ?_, rfl⟩
      rw [hw']
      exact (Nat.dvd_mod_iff hal).mpr (Nat.dvd_add (Nat.dvd_zero _) (Nat.dvd_sub hal3 hal1))
    · rw [if_neg hd]
      exact ⟨_, _, hr, rfl, rfl, rfl, Nat.dvd_zero _, rfl⟩
  obtain ⟨b, sig, hrb, hbc, hbl, hba, hbw, e⟩ := hcreate
  refine ⟨_, e, ?_⟩
  obtain ⟨b', e', hr', hc', hl'⟩ := rep_write hrb input (n := period) (by omega)
  obtain ⟨hw', hA'⟩ := write_pos e'
  rw [hbc] at e'
  simp only [Analysis.process]
  rw [e']
  obtain ⟨c, rfl⟩ : ∃ c, channels = c + 1 := ⟨channels - 1, by omega⟩
  obtain ⟨q', rfl⟩ : ∃ q', q = q' + 1 := ⟨q - 1, by omega⟩
  simp only [hdiv, indices, List.range_succ_eq_map, List.flatMap_cons, List.map_cons, List.cons_append,
    Analysis.loop, Analysis.windowing]
  rw [if_pos]
  refine ⟨hal0, ?_⟩
  intro h
  have h := Nat.dvd_of_mod_eq_zero h
  have hbA : align ∣ b'.alloc := by rw [hA', hba]; exact hal
  have hbW : align ∣ b'.w := by
    rw [hw', hba]
    exact (Nat.dvd_mod_iff hal).mpr (Nat.dvd_add hbw (hq ▸ Dvd.dvd.mul_right hal1 _))
  have hstart : window.length + (q' + 1 - 0 - 1) * hop ≤ b'.alloc + b'.w := by
    rw [hA', hba]
    rw [hdiv] at hle ⊢
    simp only [Nat.sub_zero]
    omega
  have h2 : align ∣ window.length + (q' + 1 - 0 - 1) * hop :=
    (Nat.dvd_sub_iff_right hstart (Nat.dvd_add hbA hbW)).mp h
  exact hal2 ((Nat.dvd_add_left (Dvd.dvd.mul_left hal1 _)).mp h2)

/-- The transforms the convolvers rely on (`Verif.Convolver.Dft`) satisfy the assumption made here. -/
theorem isDft_inverts {L : Nat} (hL : 0 < L) {fft : Fft ℝ ℂ} (h : IsDft L fft) : Inverts (2 * L) fft where
  fs := by rw [h.fs]; exact one_ne_zero
  is := h.is
  inv_fwd := by
    intro x n hn
    have hδ : ∀ k ≤ L, fft.fwd (fun i => if i = 0 then 1 else 0) k = 1 := by
      intro k hk
      rw [h.fwd _ k hk, sum_eq_single_of_mem 0 (by rw [mem_range]; omega)]
      · simp
      · intro i _ hi; simp [hi]
    have := inv_mul hL h x (fun i => if i = 0 then 1 else 0) n hn
    rw [(isDft_law hL h).inv_congr (fun k => fft.fwd x k * fft.fwd (fun i => if i = 0 then 1 else 0) k) (fft.fwd x)
      (fun k hk => by rw [hδ k hk, mul_one]) n hn] at this
    rw [this, h.fs, one_mul]
    unfold cyc
    rw [sum_eq_single_of_mem 0 (by rw [mem_range]; omega)]
    · simp only [if_true, one_mul, Nat.sub_zero, Nat.add_mod_right, Nat.mod_eq_of_lt hn]
    · intro i _ hi; simp [hi]

/-- Non-vacuity of `reconstruction_partial` and `hann_half_overlap`: the configuration with hop 64 and a Hann window of 128
samples. -/
example : Config 16 64 128 (2 * 64) 64 :=
  ⟨by decide, by decide, by decide, by decide, by decide, by decide, by decide, by decide, by decide⟩

end Visr.TimeFreq
