import Mathlib.Analysis.Real.Pi.Bounds
import Mathlib.Analysis.SpecialFunctions.Trigonometric.Bounds
import Verif.Crossover.Lemmas
import Verif.Biquad.Props

/-!
# C90: the crossover of the renderer does not colour the sound
-/

namespace Visr.Crossover
open Visr Visr.Biquad Filter Topology

/-! ### Specification -/

/-- A filter passes sinusoids of the angular frequency `ω` per sample with the gain `g`: for every amplitude and phase, the
output approaches a sinusoid of the same frequency and `g` times the amplitude, with a fixed difference of phase. -/
def Passes (filter : (ℕ → ℝ) → ℕ → ℝ) (ω g : ℝ) : Prop :=
  ∃ ψ : ℝ, ∀ a φ : ℝ, Tendsto (fun n : ℕ => filter (fun n => a * Real.cos (ω * n + φ)) n -
    g * (a * Real.cos (ω * n + φ + ψ))) atTop (𝓝 0)

/-- The low-pass path: the difference equation with the coefficients of the low pass. -/
noncomputable def low (x : ℕ → ℝ) : ℕ → ℝ := iir (fun _ => lowpass) x

/-- The high-pass path. -/
noncomputable def high (x : ℕ → ℝ) : ℕ → ℝ := iir (fun _ => highpass) x

/-- The angular frequency per sample of `f` at the sampling frequency `fs`, both in Hertz. -/
noncomputable def angular (f fs : ℝ) : ℝ := 2 * Real.pi * f / fs

/-! ### Lemmas -/

/-- The negative sum of the poles. -/
noncomputable abbrev a1 : ℝ := den1.value
/-- The product of the poles. -/
noncomputable abbrev a2 : ℝ := den2.value

theorem a1_eq : a1 = -15306285 / 8388608 := by unfold a1 den1 Literal.value; norm_num
theorem a2_eq : a2 = 3491079 / 4194304 := by unfold a2 den2 Literal.value; norm_num
theorem low0_eq : low0.value = 8253629 / 4294967296 := by unfold low0 Literal.value; norm_num
theorem low1_eq : low1.value = 2 * low0.value := by unfold low0 low1 Literal.value; norm_num
theorem high0_eq : high0.value = -15338525 / 16777216 := by unfold high0 Literal.value; norm_num
theorem high1_eq : high1.value = -2 * high0.value := by unfold high0 high1 Literal.value; norm_num

theorem poles : ∃ p q : ℝ, p + q = -a1 ∧ p * q = a2 ∧ |p| ≤ 23 / 25 ∧ |q| ≤ 23 / 25 := by
  set s := Real.sqrt (a1 ^ 2 - 4 * a2) with hs
  have hd : 0 ≤ a1 ^ 2 - 4 * a2 := by rw [a1_eq, a2_eq]; norm_num
  have hs2 : s ^ 2 = a1 ^ 2 - 4 * a2 := Real.sq_sqrt hd
  have hs0 : 0 ≤ s := Real.sqrt_nonneg _
  have hs1 : s ≤ 1 / 1000 := by
    rw [hs, Real.sqrt_le_left (by norm_num), a1_eq, a2_eq]
    norm_num
  have h1 := a1_eq
  refine ⟨(-a1 + s) / 2, (-a1 - s) / 2, by ring, by linear_combination -hs2 / 4, ?_, ?_⟩
  · rw [abs_le]; constructor <;> linarith
  · rw [abs_le]; constructor <;> linarith

/-- The squared magnitude of the denominator as a function of the cosine. -/
noncomputable def Q (c : ℝ) : ℝ := (1 + a1 ^ 2 + a2 ^ 2 - 2 * a2) + 2 * a1 * (1 + a2) * c + 4 * a2 * c ^ 2

theorem den_eq (z : ℂ) : den a1 a2 z = num 1 a1 a2 z := by unfold den num; push_cast; ring

theorem den_sq (ω : ℝ) : ‖den a1 a2 (Complex.exp (ω * Complex.I))‖ ^ 2 = Q (Real.cos ω) := by
  rw [den_eq, norm_sq_on_circle]
  unfold Q
  ring

theorem Q_pos {c : ℝ} (h1 : -1 ≤ c) (h2 : c ≤ 1) : 0 < Q c := by
  unfold Q
  rw [a1_eq, a2_eq]
  nlinarith [mul_nonneg (sub_nonneg.2 h1) (sub_nonneg.2 h2), sq_nonneg (1 - c), sq_nonneg (1 + c)]

theorem den_pos (ω : ℝ) : 0 < ‖den a1 a2 (Complex.exp (ω * Complex.I))‖ := by
  have := Q_pos (Real.neg_one_le_cos ω) (Real.cos_le_one ω)
  rw [← den_sq] at this
  exact lt_of_le_of_ne (norm_nonneg _) fun h => by rw [← h] at this; norm_num at this

theorem passes_of (b0 b1 b2 ω : ℝ) (filter : (ℕ → ℝ) → ℕ → ℝ)
    (hf : ∀ x n, filter x (n + 2) = b0 * x (n + 2) + b1 * x (n + 1) + b2 * x n - a1 * filter x (n + 1) - a2 * filter x n) :
    Passes filter ω (‖num b0 b1 b2 (Complex.exp (ω * Complex.I))‖ / ‖den a1 a2 (Complex.exp (ω * Complex.I))‖) := by
  obtain ⟨p, q, h1, h2, hp, hq⟩ := poles
  refine ⟨(num b0 b1 b2 (Complex.exp (ω * Complex.I)) / den a1 a2 (Complex.exp (ω * Complex.I))).arg, fun a φ => ?_⟩
  have hD : den (-(p + q)) (p * q) (Complex.exp (ω * Complex.I)) ≠ 0 := by
    rw [h1, h2, neg_neg]
    exact norm_pos_iff.1 (den_pos ω)
  have := sinusoid (b0 := b0) (b1 := b1) (b2 := b2) (p := p) (q := q) (lt_of_le_of_lt hp (by norm_num))
    (lt_of_le_of_lt hq (by norm_num)) ω φ a (filter (fun n => a * Real.cos (ω * n + φ))) hD ?_
  · rw [h1, h2, neg_neg] at this
    exact this
  · intro n
    rw [hf, h1, h2]
    ring

theorem iir_rec (c : Coef ℝ) (x : ℕ → ℝ) (n : ℕ) : iir (fun _ => c) x (n + 2) =
    c.b0 * x (n + 2) + c.b1 * x (n + 1) + c.b2 * x n - c.a1 * iir (fun _ => c) x (n + 1) - c.a2 * iir (fun _ => c) x n := by
  rw [iir]; ring

/-- The gain of the low pass. -/
noncomputable def lowGain (ω : ℝ) : ℝ := ‖num low0.value low1.value low0.value (Complex.exp (ω * Complex.I))‖ /
  ‖den a1 a2 (Complex.exp (ω * Complex.I))‖

/-- The gain of the high pass. -/
noncomputable def highGain (ω : ℝ) : ℝ := ‖num high0.value high1.value high0.value (Complex.exp (ω * Complex.I))‖ /
  ‖den a1 a2 (Complex.exp (ω * Complex.I))‖

theorem lowGain_sq (ω : ℝ) : lowGain ω ^ 2 = 4 * low0.value ^ 2 * (1 + Real.cos ω) ^ 2 / Q (Real.cos ω) := by
  unfold lowGain
  rw [div_pow, den_sq, norm_sq_on_circle, low1_eq]
  congr 1
  ring

theorem highGain_sq (ω : ℝ) : highGain ω ^ 2 = 4 * high0.value ^ 2 * (1 - Real.cos ω) ^ 2 / Q (Real.cos ω) := by
  unfold highGain
  rw [div_pow, den_sq, norm_sq_on_circle, high1_eq]
  congr 1
  ring

theorem lowGain_nonneg (ω : ℝ) : 0 ≤ lowGain ω := div_nonneg (norm_nonneg _) (norm_nonneg _)
theorem highGain_nonneg (ω : ℝ) : 0 ≤ highGain ω := div_nonneg (norm_nonneg _) (norm_nonneg _)

/-- Bounds of a nonnegative number from bounds of its square. -/
theorem near {g x ε : ℝ} (hg : 0 ≤ g) (hx : 0 ≤ x - ε) (he : 0 ≤ ε) (h1 : (x - ε) ^ 2 ≤ g ^ 2) (h2 : g ^ 2 ≤ (x + ε) ^ 2) :
    |g - x| ≤ ε := by
  have k1 := (pow_le_pow_iff_left₀ hx hg (by norm_num : (2 : ℕ) ≠ 0)).1 h1
  have k2 := (pow_le_pow_iff_left₀ hg (by linarith) (by norm_num : (2 : ℕ) ≠ 0)).1 h2
  rw [abs_le]; constructor <;> linarith

theorem low_ratio_mono {c d : ℝ} (hc : -1 ≤ c) (hcd : c ≤ d) (hd : d ≤ 1) : (1 + c) ^ 2 / Q c ≤ (1 + d) ^ 2 / Q d := by
  have h1 := Q_pos hc (hcd.trans hd)
  have h2 := Q_pos (hc.trans hcd) hd
  rw [div_le_div_iff₀ h1 h2]
  set A := 1 + a1 ^ 2 + a2 ^ 2 - 2 * a2 with hA
  set B := 2 * a1 * (1 + a2) with hB
  set C := 4 * a2 with hC
  have e : (1 + d) ^ 2 * Q c - (1 + c) ^ 2 * Q d = (d - c) * ((A - C) * ((1 + c) * (1 + d)) +
      (A - B + C) / 2 * ((1 + c) * (1 - d) + (1 - c) * (1 + d))) := by
    unfold Q; rw [← hA, ← hB, ← hC]; ring
  have p1 : 0 ≤ A - C := by rw [hA, hC, a1_eq, a2_eq]; norm_num
  have p2 : 0 ≤ A - B + C := by rw [hA, hB, hC, a1_eq, a2_eq]; norm_num
  have u1 : 0 ≤ 1 + c := by linarith
  have u2 : 0 ≤ 1 + d := by linarith
  have u3 : 0 ≤ 1 - d := by linarith
  have u4 : 0 ≤ 1 - c := by linarith
  have : 0 ≤ (1 + d) ^ 2 * Q c - (1 + c) ^ 2 * Q d := by
    rw [e]
    have := sub_nonneg.2 hcd
    positivity
  linarith

theorem high_ratio_mono {c d : ℝ} (hc : -1 ≤ c) (hcd : c ≤ d) (hd : d ≤ 1) : (1 - d) ^ 2 / Q d ≤ (1 - c) ^ 2 / Q c := by
  have h1 := Q_pos hc (hcd.trans hd)
  have h2 := Q_pos (hc.trans hcd) hd
  rw [div_le_div_iff₀ h2 h1]
  set A := 1 + a1 ^ 2 + a2 ^ 2 - 2 * a2 with hA
  set B := 2 * a1 * (1 + a2) with hB
  set C := 4 * a2 with hC
  have e : (1 - c) ^ 2 * Q d - (1 - d) ^ 2 * Q c = (d - c) * ((A - C) * ((1 - c) * (1 - d)) +
      (A + B + C) / 2 * ((1 + c) * (1 - d) + (1 - c) * (1 + d))) := by
    unfold Q; rw [← hA, ← hB, ← hC]; ring
  have p1 : 0 ≤ A - C := by rw [hA, hC, a1_eq, a2_eq]; norm_num
  have p2 : 0 ≤ A + B + C := by rw [hA, hB, hC, a1_eq, a2_eq]; norm_num
  have u1 : 0 ≤ 1 + c := by linarith
  have u2 : 0 ≤ 1 + d := by linarith
  have u3 : 0 ≤ 1 - d := by linarith
  have u4 : 0 ≤ 1 - c := by linarith
  have : 0 ≤ (1 - c) ^ 2 * Q d - (1 - d) ^ 2 * Q c := by
    rw [e]
    have := sub_nonneg.2 hcd
    positivity
  linarith

/-! ### Theorems -/

/-- C90: a filter passes sinusoids of a frequency with at most one gain, so that statements about some gain are statements about
the gain of the filter. -/
theorem gain_unique {filter : (ℕ → ℝ) → ℕ → ℝ} {ω g g' : ℝ} (hg : 0 ≤ g) (hg' : 0 ≤ g') (h : Passes filter ω g)
    (h' : Passes filter ω g') : g = g' := by
  obtain ⟨ψ, h⟩ := h
  obtain ⟨ψ', h'⟩ := h'
  have hd : ∀ φ : ℝ, Tendsto (fun n : ℕ => g * Real.cos (ω * n + φ + ψ) - g' * Real.cos (ω * n + φ + ψ')) atTop (𝓝 0) := by
    intro φ
    have := (h' 1 φ).sub (h 1 φ)
    simp only [sub_zero] at this
    refine this.congr fun n => ?_
    ring
  have h2 := ((hd 0).pow 2).add ((hd (-(Real.pi / 2))).pow 2)
  have hc : ∀ n : ℕ, (g * Real.cos (ω * n + 0 + ψ) - g' * Real.cos (ω * n + 0 + ψ')) ^ 2 +
      (g * Real.cos (ω * n + -(Real.pi / 2) + ψ) - g' * Real.cos (ω * n + -(Real.pi / 2) + ψ')) ^ 2 =
      g ^ 2 + g' ^ 2 - 2 * g * g' * Real.cos (ψ - ψ') := by
    intro n
    have e1 : ∀ t : ℝ, Real.cos (ω * n + -(Real.pi / 2) + t) = Real.sin (ω * n + t) := by
      intro t
      rw [show ω * n + -(Real.pi / 2) + t = (ω * n + t) - Real.pi / 2 by ring, Real.cos_sub_pi_div_two]
    have e2 : Real.cos (ψ - ψ') = Real.cos (ω * n + ψ) * Real.cos (ω * n + ψ') +
        Real.sin (ω * n + ψ) * Real.sin (ω * n + ψ') := by
      rw [← Real.cos_sub]; congr 1; ring
    rw [e1, e1, e2, add_zero]
    have s1 := Real.sin_sq_add_cos_sq (ω * n + ψ)
    have s2 := Real.sin_sq_add_cos_sq (ω * n + ψ')
    linear_combination g ^ 2 * s1 + g' ^ 2 * s2
  simp only [hc] at h2
  have h0 : g ^ 2 + g' ^ 2 - 2 * g * g' * Real.cos (ψ - ψ') = 0 := by
    have := tendsto_nhds_unique tendsto_const_nhds h2
    simpa using this
  have hle := Real.cos_le_one (ψ - ψ')
  have hgg : 0 ≤ g * g' := mul_nonneg hg hg'
  have : (g - g') ^ 2 ≤ 0 := by nlinarith
  have := pow_eq_zero_iff (two_ne_zero) |>.1 (le_antisymm this (sq_nonneg _))
  linarith

/-- C90: without objects, the filter bank is refused. -/
theorem no_objects : bank 0 = .throw .invalidArgument := by
  unfold bank Filter.createMatrix
  rw [if_pos (by right; decide)]

/-- C90: the coefficients are the floating-point numbers nearest to the literals of the code: normalised numbers with 24 bits,
less than half a unit in the last place away. -/
theorem coefficients : ∀ l ∈ [low0, low1, high0, high1, den1, den2], 2 ^ 23 ≤ |l.mantissa| ∧ |l.mantissa| < 2 ^ 24 ∧
    |(l.digits : ℝ) / 10 ^ 15 - l.value| < 1 / 2 ^ (l.exponent + 1) := by
  intro l hl
  simp only [List.mem_cons, List.not_mem_nil, or_false] at hl
  rcases hl with rfl | rfl | rfl | rfl | rfl | rfl <;>
    refine ⟨by decide, by decide, ?_⟩ <;> rw [abs_lt] <;>
    simp only [low0, low1, high0, high1, den1, den2, Literal.value] <;> constructor <;> norm_num

/-- **C90.** For any number of objects, the filter bank can be created, and for every sequence of blocks, the outputs of its two
channels for an object are the low-pass and the high-pass path for the complete signal of that object. -/
theorem bank_outputs {n : Nat} (hn : 0 < n) : ∃ f, bank n = .ok f ∧ ∀ (blocks : List (Nat → List ℝ)),
    ∃ outs : List (List (List ℝ)), (run step f (blocks.map fun b => Op.process none (bankInput n b))).2 = outs.map .ok ∧
      ∀ ob < n,
        outs.flatMap (fun o => o.getD ob []) = (List.range (blocks.flatMap (· ob)).length).map
          (low fun k => (blocks.flatMap (· ob))[k]?.getD 0) ∧
        outs.flatMap (fun o => o.getD (n + ob) []) = (List.range (blocks.flatMap (· ob)).length).map
          (high fun k => (blocks.flatMap (· ob))[k]?.getD 0) := by
  have hrow : ∀ r ∈ coeffMatrix n, r.length = 1 := by
    intro r hr
    unfold coeffMatrix at hr
    rw [List.mem_map] at hr
    obtain ⟨ch, -, rfl⟩ := hr
    split <;> rfl
  have hlen : (coeffMatrix n).length = 2 * n := by simp [coeffMatrix]
  have hsec : numberOfSections (coeffMatrix n) = 1 := by
    cases hm : coeffMatrix n with
    | nil => rw [hm] at hlen; simp at hlen; omega
    | cons r m => exact hrow r (by rw [hm]; simp)
  have hrect : Rectangular (coeffMatrix n) := by
    intro r hr r' hr'
    rw [hrow r hr, hrow r' hr']
  obtain ⟨f, hf⟩ : ∃ f, bank n = .ok f := by
    unfold bank Filter.createMatrix
    rw [if_neg (by rw [hlen, hsec]; simp)]
    obtain ⟨f, h1, -⟩ := setMatrixLoop_ok (Biquad.Filter.create (K := ℝ) (2 * n) 1) (coeffMatrix n) (2 * n) (by omega)
      (by intro r hr; rw [hrow r hr]; rfl)
    exact ⟨f, h1⟩
  refine ⟨f, hf, ?_⟩
  intro blocks
  have hc : Created (2 * n) 1 f (fun ch k => ((coeffMatrix n)[ch]?.bind fun r => r[k]?).getD Coef.flat) :=
    .matrix _ f hrect hf
  have hmap : (blocks.map fun b => Op.process none (bankInput n b)) = (blocks.map (bankInput n)).map (Op.process none) := by
    rw [List.map_map]; rfl
  have hat : ∀ ch (hch : ch < 2 * n), (coeffMatrix n)[ch]? = some (if ch < n then [lowpass] else [highpass]) := by
    intro ch hch
    simp [coeffMatrix, hch]
  obtain ⟨outs, h0, -⟩ := biquad_partition hc (blocks.map (bankInput n)) 0 (by omega)
  refine ⟨outs, by rw [hmap]; exact h0, ?_⟩
  intro ob hob
  have hout : ∀ ch, ch < 2 * n → outs.flatMap (fun o => o.getD ch []) =
      (List.range ((blocks.map (bankInput n)).flatMap (· ch)).length).map
        (iir (fun _ => if ch < n then lowpass else highpass)
          (fun k => ((blocks.map (bankInput n)).flatMap (· ch))[k]?.getD 0)) := by
    intro ch hch
    obtain ⟨outs', h1, h2⟩ := biquad_partition hc (blocks.map (bankInput n)) ch hch
    have : outs' = outs := by
      rw [h0] at h1
      exact (List.map_injective_iff.2 (fun a b h => by injection h) h1).symm
    rw [← this, h2]
    congr 1
    show iir _ _ = iir _ _
    congr 1
    funext m
    rw [hat ch hch]
    by_cases h : ch < n <;> simp [h]
  have hin : ∀ ch, (blocks.map (bankInput n)).flatMap (· ch) = blocks.flatMap (· (if ch < n then ch else ch - n)) := by
    intro ch
    rw [List.flatMap_map]
    congr 1
    funext b
    unfold bankInput
    split <;> rfl
  constructor
  · rw [hout ob (by omega), hin, if_pos hob, if_pos hob]
    rfl
  · rw [hout (n + ob) (by omega), hin, if_neg (by omega), if_neg (by omega), Nat.add_sub_cancel_left]
    rfl

/-- **C90.** Whatever the frequency, amplitude and phase of a sinusoid, the sum of both paths has its amplitude within one part in
100000: with equal panning gains for low and high frequencies, the renderer does not colour the sound. -/
theorem sum_flat (ω : ℝ) : ∃ g, |g - 1| ≤ 1 / 100000 ∧ Passes (fun x n => low x n + high x n) ω g := by
  refine ⟨_, ?_, passes_of (low0.value + high0.value) (low1.value + high1.value) (low0.value + high0.value) ω _ ?_⟩
  · apply near (div_nonneg (norm_nonneg _) (norm_nonneg _)) (by norm_num) (by norm_num)
    all_goals
      rw [div_pow, den_sq, norm_sq_on_circle]
      have h1 := Real.neg_one_le_cos ω
      have h2 := Real.cos_le_one ω
      have hq := Q_pos h1 h2
      generalize Real.cos ω = c at *
    · rw [le_div_iff₀ hq]
      unfold Q
      rw [low1_eq, high1_eq, low0_eq, high0_eq, a1_eq, a2_eq]
      nlinarith [mul_nonneg (sub_nonneg.2 h1) (sub_nonneg.2 h2), sq_nonneg (1 - c), sq_nonneg (1 + c)]
    · rw [div_le_iff₀ hq]
      unfold Q
      rw [low1_eq, high1_eq, low0_eq, high0_eq, a1_eq, a2_eq]
      nlinarith [mul_nonneg (sub_nonneg.2 h1) (sub_nonneg.2 h2), sq_nonneg (1 - c), sq_nonneg (1 + c)]
  · intro x n
    unfold low high
    rw [iir_rec, iir_rec]
    show _ = _
    simp only [lowpass, highpass]
    ring

/-- **C90.** There are gains for all frequencies with which the two paths pass sinusoids; from zero to half the sampling frequency,
that of the low pass decreases from 1 (within one part in 100000) to 0, that of the high pass increases from 0 to 1. -/
theorem split : ∃ gl gh : ℝ → ℝ, (∀ ω, Passes low ω (gl ω)) ∧ (∀ ω, Passes high ω (gh ω)) ∧
    AntitoneOn gl (Set.Icc 0 Real.pi) ∧ MonotoneOn gh (Set.Icc 0 Real.pi) ∧
    |gl 0 - 1| ≤ 1 / 100000 ∧ gl Real.pi = 0 ∧ gh 0 = 0 ∧ |gh Real.pi - 1| ≤ 1 / 100000 := by
  refine ⟨lowGain, highGain, ?_, ?_, ?_, ?_, ?_, ?_, ?_, ?_⟩
  · intro ω
    exact passes_of _ _ _ ω _ fun x n => iir_rec lowpass x n
  · intro ω
    exact passes_of _ _ _ ω _ fun x n => iir_rec highpass x n
  · intro x hx y hy hxy
    rw [← pow_le_pow_iff_left₀ (lowGain_nonneg _) (lowGain_nonneg _) (by norm_num : (2 : ℕ) ≠ 0), lowGain_sq, lowGain_sq,
      mul_div_assoc, mul_div_assoc]
    exact mul_le_mul_of_nonneg_left (low_ratio_mono (Real.neg_one_le_cos _)
      (Real.strictAntiOn_cos.antitoneOn hx hy hxy) (Real.cos_le_one _)) (by positivity)
  · intro x hx y hy hxy
    rw [← pow_le_pow_iff_left₀ (highGain_nonneg _) (highGain_nonneg _) (by norm_num : (2 : ℕ) ≠ 0), highGain_sq, highGain_sq,
      mul_div_assoc, mul_div_assoc]
    exact mul_le_mul_of_nonneg_left (high_ratio_mono (Real.neg_one_le_cos _)
      (Real.strictAntiOn_cos.antitoneOn hx hy hxy) (Real.cos_le_one _)) (by positivity)
  · apply near (lowGain_nonneg _) (by norm_num) (by norm_num) <;>
      rw [lowGain_sq, Real.cos_zero] <;> unfold Q <;> rw [low0_eq, a1_eq, a2_eq] <;> norm_num
  · have := lowGain_sq Real.pi
    rw [Real.cos_pi] at this
    norm_num at this
    exact this
  · have := highGain_sq 0
    rw [Real.cos_zero] at this
    norm_num at this
    exact this
  · apply near (highGain_nonneg _) (by norm_num) (by norm_num) <;>
      rw [highGain_sq, Real.cos_pi] <;> unfold Q <;> rw [high0_eq, a1_eq, a2_eq] <;> norm_num

/-- The cosine near zero. -/
theorem cos_near {x l u : ℝ} (hl : 0 ≤ l) (h1 : l ≤ x) (h2 : x ≤ u) (hu : u ≤ 1) :
    1 - u ^ 2 / 2 - u ^ 4 * (5 / 96) ≤ Real.cos x ∧ Real.cos x ≤ 1 - l ^ 2 / 2 + u ^ 4 * (5 / 96) := by
  have hx0 : 0 ≤ x := hl.trans h1
  have hb := Real.cos_bound (x := x) (by rw [abs_of_nonneg hx0]; linarith)
  rw [abs_of_nonneg hx0, abs_le] at hb
  have h4 : x ^ 4 ≤ u ^ 4 := pow_le_pow_left₀ hx0 h2 4
  have h5 : x ^ 2 ≤ u ^ 2 := pow_le_pow_left₀ hx0 h2 2
  have h6 : l ^ 2 ≤ x ^ 2 := pow_le_pow_left₀ hl h1 2
  constructor <;> linarith [hb.1, hb.2]

/-- **C90.** At a sampling frequency of 48 kHz, both paths have the same gain 1/2 (within 0.001) at 700 Hz. -/
theorem crossover_frequency_partial : ∃ gl gh, Passes low (angular 700 48000) gl ∧ Passes high (angular 700 48000) gh ∧
    |gl - 1 / 2| ≤ 1 / 1000 ∧ |gh - 1 / 2| ≤ 1 / 1000 := by
  refine ⟨lowGain (angular 700 48000), highGain (angular 700 48000), passes_of _ _ _ _ _ fun x n => iir_rec lowpass x n,
    passes_of _ _ _ _ _ fun x n => iir_rec highpass x n, ?_⟩
  have hx : angular 700 48000 = 7 * Real.pi / 240 := by unfold angular; ring
  obtain ⟨c1, c2⟩ := cos_near (x := angular 700 48000) (l := 7 * 3.1415 / 240) (u := 7 * 3.1416 / 240) (by norm_num)
    (by rw [hx]; linarith [Real.pi_gt_d4]) (by rw [hx]; linarith [Real.pi_lt_d4]) (by norm_num)
  have hl := lowGain_sq (angular 700 48000)
  have hh := highGain_sq (angular 700 48000)
  have hq := Q_pos (Real.neg_one_le_cos (angular 700 48000)) (Real.cos_le_one _)
  generalize Real.cos (angular 700 48000) = c at *
  have d1 : 0.995798 ≤ c := le_trans (by norm_num) c1
  have d2 : c ≤ 0.995806 := c2.trans (by norm_num)
  constructor
  · apply near (lowGain_nonneg _) (by norm_num) (by norm_num)
    all_goals
      rw [hl]
    · rw [le_div_iff₀ hq]
      unfold Q
      rw [low0_eq, a1_eq, a2_eq]
      nlinarith [mul_nonneg (sub_nonneg.2 d1) (sub_nonneg.2 d2)]
    · rw [div_le_iff₀ hq]
      unfold Q
      rw [low0_eq, a1_eq, a2_eq]
      nlinarith [mul_nonneg (sub_nonneg.2 d1) (sub_nonneg.2 d2)]
  · apply near (highGain_nonneg _) (by norm_num) (by norm_num)
    all_goals
      rw [hh]
    · rw [le_div_iff₀ hq]
      unfold Q
      rw [high0_eq, a1_eq, a2_eq]
      nlinarith [mul_nonneg (sub_nonneg.2 d1) (sub_nonneg.2 d2)]
    · rw [div_le_iff₀ hq]
      unfold Q
      rw [high0_eq, a1_eq, a2_eq]
      nlinarith [mul_nonneg (sub_nonneg.2 d1) (sub_nonneg.2 d2)]

/-- C90, negation: the coefficients are not adapted to the sampling frequency. At 96 kHz, at 700 Hz the low pass has a gain of
more than 0.79 and the high pass of less than 0.21: the crossover frequency is not 700 Hz. -/
theorem fixed_sampling_frequency : ∃ gl gh, Passes low (angular 700 96000) gl ∧ Passes high (angular 700 96000) gh ∧
    0.79 ≤ gl ∧ 0 ≤ gh ∧ gh ≤ 0.21 := by
  refine ⟨lowGain (angular 700 96000), highGain (angular 700 96000), passes_of _ _ _ _ _ fun x n => iir_rec lowpass x n,
    passes_of _ _ _ _ _ fun x n => iir_rec highpass x n, ?_, highGain_nonneg _, ?_⟩
  all_goals
    have hx : angular 700 96000 = 7 * Real.pi / 480 := by unfold angular; ring
    obtain ⟨c1, c2⟩ := cos_near (x := angular 700 96000) (l := 7 * 3.1415 / 480) (u := 7 * 3.1416 / 480) (by norm_num)
      (by rw [hx]; linarith [Real.pi_gt_d4]) (by rw [hx]; linarith [Real.pi_lt_d4]) (by norm_num)
    have hl := lowGain_sq (angular 700 96000)
    have hh := highGain_sq (angular 700 96000)
    have hq := Q_pos (Real.neg_one_le_cos (angular 700 96000)) (Real.cos_le_one _)
    generalize Real.cos (angular 700 96000) = c at *
    have d1 : 0.99895 ≤ c := le_trans (by norm_num) c1
    have d2 : c ≤ 0.998951 := c2.trans (by norm_num)
  · rw [← pow_le_pow_iff_left₀ (by norm_num) (lowGain_nonneg _) (by norm_num : (2 : ℕ) ≠ 0), hl, le_div_iff₀ hq]
    unfold Q
    rw [low0_eq, a1_eq, a2_eq]
    nlinarith [mul_nonneg (sub_nonneg.2 d1) (sub_nonneg.2 d2)]
  · rw [← pow_le_pow_iff_left₀ (highGain_nonneg _) (by norm_num) (by norm_num : (2 : ℕ) ≠ 0), hh, div_le_iff₀ hq]
    unfold Q
    rw [high0_eq, a1_eq, a2_eq]
    nlinarith [mul_nonneg (sub_nonneg.2 d1) (sub_nonneg.2 d2)]

/-- **C90.** Both paths are stable: for every input of at most `M`, whatever its form, the outputs of the paths are at most `2 M`
and `600 M`. -/
theorem stable (x : ℕ → ℝ) (M : ℝ) (hx : ∀ n, |x n| ≤ M) (n : ℕ) : |low x n| ≤ 2 * M ∧ |high x n| ≤ 600 * M := by
  obtain ⟨p, q, h1, h2, hp, hq⟩ := poles
  have hM : 0 ≤ M := (abs_nonneg _).trans (hx 0)
  have gen : ∀ (c : Coef ℝ) (B : ℝ), c.a1 = a1 → c.a2 = a2 → |c.b0| ≤ B → |c.b1| ≤ 2 * B → |c.b2| ≤ B →
      |iir (fun _ => c) x n| ≤ 4 * B * M / (1 - 23 / 25) ^ 2 := by
    intro c B e1 e2 b0 b1 b2
    have hB : 0 ≤ B := (abs_nonneg _).trans b0
    have m : ∀ b k B', |b| ≤ B' → |b * x k| ≤ B' * M := fun b k B' hb => by
      rw [abs_mul]; exact mul_le_mul hb (hx k) (abs_nonneg _) ((abs_nonneg _).trans hb)
    set u : ℕ → ℝ := fun n => match n with
      | 0 => c.b0 * x 0
      | 1 => c.b0 * x 1 + c.b1 * x 0
      | n + 2 => c.b0 * x (n + 2) + c.b1 * x (n + 1) + c.b2 * x n with hu
    apply bounded hp hq (by norm_num) u (iir (fun _ => c) x)
    · intro k
      have hBM : 0 ≤ B * M := mul_nonneg hB hM
      match k with
      | 0 =>
        have := m _ 0 _ b0
        show |c.b0 * x 0| ≤ _
        linarith
      | 1 =>
        have t := abs_add_le (c.b0 * x 1) (c.b1 * x 0)
        have := m _ 1 _ b0
        have := m _ 0 _ b1
        show |c.b0 * x 1 + c.b1 * x 0| ≤ _
        linarith
      | k + 2 =>
        have t := abs_add_le (c.b0 * x (k + 2) + c.b1 * x (k + 1)) (c.b2 * x k)
        have t' := abs_add_le (c.b0 * x (k + 2)) (c.b1 * x (k + 1))
        have := m _ (k + 2) _ b0
        have := m _ (k + 1) _ b1
        have := m _ k _ b2
        show |c.b0 * x (k + 2) + c.b1 * x (k + 1) + c.b2 * x k| ≤ _
        linarith
    · rfl
    · show iir (fun _ => c) x 1 = c.b0 * x 1 + c.b1 * x 0 + _
      have e : iir (fun _ => c) x 1 = c.b0 * x 1 + (c.b1 * x 0 - c.a1 * iir (fun _ => c) x 0) := rfl
      rw [e, h1, e1]
      ring
    · intro k
      show _ = c.b0 * x (k + 2) + c.b1 * x (k + 1) + c.b2 * x k + _ - _
      rw [iir_rec, h1, h2, e1, e2]
      ring
  constructor
  · have := gen lowpass (1 / 500) rfl rfl (by show |low0.value| ≤ _; rw [low0_eq]; norm_num)
      (by show |low1.value| ≤ _; rw [low1_eq, low0_eq]; norm_num) (by show |low0.value| ≤ _; rw [low0_eq]; norm_num)
    refine this.trans ?_
    rw [div_le_iff₀ (by norm_num)]
    linarith
  · have := gen highpass (23 / 25) rfl rfl (by show |high0.value| ≤ _; rw [high0_eq]; norm_num [abs_of_neg, abs_of_pos])
      (by show |high1.value| ≤ _; rw [high1_eq, high0_eq]; norm_num [abs_of_neg, abs_of_pos])
      (by show |high0.value| ≤ _; rw [high0_eq]; norm_num [abs_of_neg, abs_of_pos])
    refine this.trans ?_
    rw [div_le_iff₀ (by norm_num)]
    linarith

end Visr.Crossover
