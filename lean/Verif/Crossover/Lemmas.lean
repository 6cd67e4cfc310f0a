import Mathlib.Analysis.Complex.Trigonometric
import Mathlib.Analysis.SpecialFunctions.Complex.Arg
import Mathlib.Analysis.SpecificLimits.Normed
import Mathlib.Tactic.NormNum
import Mathlib.Tactic.Ring
import Mathlib.Tactic.LinearCombination
import Mathlib.Tactic.Positivity
import Verif.Crossover.Model
import Verif.Biquad.Spec

/-!
# Lemmas about second-order filters with sinusoidal input
-/

namespace Visr.Crossover
open Visr.Biquad Filter Topology

/-! ### Decay of the natural response -/

/-- A second-order recursion with two real poles inside of the unit circle decays. -/
theorem decay {p q : ℝ} (hp : |p| < 1) (hq : |q| < 1) (d : ℕ → ℝ)
    (hd : ∀ n, d (n + 2) - (p + q) * d (n + 1) + p * q * d n = 0) : Tendsto d atTop (𝓝 0) := by
  set ρ := max |p| |q| with hρ
  have hρ0 : 0 ≤ ρ := (abs_nonneg p).trans (le_max_left _ _)
  have hρ1 : ρ < 1 := max_lt hp hq
  set w : ℕ → ℝ := fun n => d (n + 1) - q * d n with hwd
  have hw : ∀ n, w (n + 1) = p * w n := by
    intro n
    have := hd n
    simp only [hwd]
    linear_combination this
  have hwb : ∀ n, |w n| ≤ |w 0| * ρ ^ n := by
    intro n
    induction n with
    | zero => simp
    | succ n ih =>
      rw [hw, abs_mul, pow_succ]
      calc |p| * |w n| ≤ ρ * (|w 0| * ρ ^ n) := mul_le_mul (le_max_left _ _) ih (abs_nonneg _) hρ0
        _ = _ := by ring
  -- shift: the driving term of step `n + 1` is `w n`
  have hb : ∀ n, |d n| ≤ (|d 0| + n * |w 0|) * ρ ^ n + n * |w 0| * ρ ^ (n - 1) := by
    intro n
    have hrec : ∀ n, |d (n + 1)| ≤ ρ * |d n| + |w 0| * ρ ^ n := by
      intro n
      have e : d (n + 1) = q * d n + w n := by simp only [hwd]; ring
      rw [e]
      refine (abs_add_le _ _).trans (add_le_add ?_ (hwb n))
      rw [abs_mul]
      exact mul_le_mul_of_nonneg_right (le_max_right _ _) (abs_nonneg _)
    have hk : |d n| ≤ |d 0| * ρ ^ n + n * |w 0| * ρ ^ (n - 1) := by
      induction n with
      | zero => simp
      | succ n ih =>
        refine (hrec n).trans ?_
        have := mul_le_mul_of_nonneg_left ih hρ0
        have e : ρ * (↑n * |w 0| * ρ ^ (n - 1)) = n * |w 0| * ρ ^ n := by
          cases n with
          | zero => simp
          | succ m => rw [Nat.add_sub_cancel]; ring
        rw [Nat.add_sub_cancel]
        push_cast
        rw [mul_add, e] at this
        calc ρ * |d n| + |w 0| * ρ ^ n ≤ ρ * (|d 0| * ρ ^ n) + ↑n * |w 0| * ρ ^ n + |w 0| * ρ ^ n := by linarith
          _ = _ := by ring
    refine hk.trans (add_le_add (mul_le_mul_of_nonneg_right ?_ (by positivity)) le_rfl)
    have : 0 ≤ (n : ℝ) * |w 0| := by positivity
    linarith
  have t1 : Tendsto (fun n : ℕ => ρ ^ n) atTop (𝓝 0) := tendsto_pow_atTop_nhds_zero_of_lt_one hρ0 hρ1
  have t2 : Tendsto (fun n : ℕ => (n : ℝ) * ρ ^ n) atTop (𝓝 0) := tendsto_self_mul_const_pow_of_lt_one hρ0 hρ1
  have t3 : Tendsto (fun n : ℕ => (n : ℝ) * |w 0| * ρ ^ (n - 1)) atTop (𝓝 0) := by
    rw [← tendsto_add_atTop_iff_nat 1]
    have e : (fun n : ℕ => ((n + 1 : ℕ) : ℝ) * |w 0| * ρ ^ (n + 1 - 1)) =
        fun n : ℕ => |w 0| * ((n : ℝ) * ρ ^ n) + |w 0| * ρ ^ n := by
      funext n; rw [Nat.add_sub_cancel]; push_cast; ring
    rw [e]
    simpa using (t2.const_mul |w 0|).add (t1.const_mul |w 0|)
  have t4 : Tendsto (fun n : ℕ => (|d 0| + n * |w 0|) * ρ ^ n + n * |w 0| * ρ ^ (n - 1)) atTop (𝓝 0) := by
    have e : (fun n : ℕ => (|d 0| + n * |w 0|) * ρ ^ n) =
        fun n : ℕ => |d 0| * ρ ^ n + |w 0| * ((n : ℝ) * ρ ^ n) := by funext n; ring
    have : Tendsto (fun n : ℕ => (|d 0| + n * |w 0|) * ρ ^ n) atTop (𝓝 0) := by
      rw [e]
      simpa using (t1.const_mul |d 0|).add (t2.const_mul |w 0|)
    simpa using this.add t3
  exact squeeze_zero_norm (fun n => by rw [Real.norm_eq_abs]; exact hb n) t4

/-- A second-order recursion with two real poles of modulus at most `ρ` is bounded for bounded input. -/
theorem bounded {p q ρ M : ℝ} (hp : |p| ≤ ρ) (hq : |q| ≤ ρ) (hρ : ρ < 1) (x y : ℕ → ℝ) (hx : ∀ n, |x n| ≤ M)
    (h0 : y 0 = x 0) (h1 : y 1 = x 1 + (p + q) * y 0)
    (hy : ∀ n, y (n + 2) = x (n + 2) + (p + q) * y (n + 1) - p * q * y n) (n : ℕ) : |y n| ≤ M / (1 - ρ) ^ 2 := by
  have hpos : 0 < 1 - ρ := by linarith
  have hM : 0 ≤ M := (abs_nonneg _).trans (hx 0)
  have hρ0 : 0 ≤ ρ := (abs_nonneg _).trans hp
  have hw0 : |y 0| ≤ M / (1 - ρ) := by
    rw [h0, le_div_iff₀ hpos]
    nlinarith [hx 0, abs_nonneg (x 0)]
  have hw : ∀ n, |y (n + 1) - q * y n| ≤ M / (1 - ρ) := by
    intro n
    have step : ∀ w x', |w| ≤ M / (1 - ρ) → |x'| ≤ M → |p * w + x'| ≤ M / (1 - ρ) := by
      intro w x' hw hx'
      refine (abs_add_le _ _).trans ?_
      rw [abs_mul]
      have : |p| * |w| ≤ ρ * (M / (1 - ρ)) := mul_le_mul hp hw (abs_nonneg _) hρ0
      have e : ρ * (M / (1 - ρ)) + M = M / (1 - ρ) := by field_simp; ring
      linarith
    induction n with
    | zero =>
      have e : y (0 + 1) - q * y 0 = p * y 0 + x 1 := by rw [zero_add, h1]; ring
      rw [e]; exact step _ _ hw0 (hx 1)
    | succ n ih =>
      have e : y (n + 1 + 1) - q * y (n + 1) = p * (y (n + 1) - q * y n) + x (n + 2) := by rw [hy n]; ring
      rw [e]; exact step _ _ ih (hx _)
  have hle : M / (1 - ρ) ≤ M / (1 - ρ) ^ 2 := by
    apply div_le_div_of_nonneg_left hM (by positivity)
    nlinarith
  induction n with
  | zero => exact hw0.trans hle
  | succ n ih =>
    have e : y (n + 1) = q * y n + (y (n + 1) - q * y n) := by ring
    rw [e]
    refine (abs_add_le _ _).trans ?_
    rw [abs_mul]
    have : |q| * |y n| ≤ ρ * (M / (1 - ρ) ^ 2) := mul_le_mul hq ih (abs_nonneg _) hρ0
    have e2 : ρ * (M / (1 - ρ) ^ 2) + M / (1 - ρ) = M / (1 - ρ) ^ 2 := by field_simp; ring
    linarith [hw n]

/-! ### Response to a sinusoid -/

/-- The denominator of the frequency response, times `z²`. -/
noncomputable def den (a1 a2 : ℝ) (z : ℂ) : ℂ := z ^ 2 + a1 * z + a2

/-- The numerator of the frequency response, times `z²`. -/
noncomputable def num (b0 b1 b2 : ℝ) (z : ℂ) : ℂ := b0 * z ^ 2 + b1 * z + b2

/-- The driven recursion follows the sinusoid with the gain and the phase of the frequency response. -/
theorem sinusoid {p q b0 b1 b2 : ℝ} (hp : |p| < 1) (hq : |q| < 1) (ω φ a : ℝ) (y : ℕ → ℝ)
    (hD : den (-(p + q)) (p * q) (Complex.exp (ω * Complex.I)) ≠ 0)
    (hy : ∀ n : ℕ, y (n + 2) = b0 * (a * Real.cos (ω * (n + 2 : ℕ) + φ)) + b1 * (a * Real.cos (ω * (n + 1 : ℕ) + φ))
      + b2 * (a * Real.cos (ω * n + φ)) + (p + q) * y (n + 1) - p * q * y n) :
    Tendsto (fun n : ℕ => y n -
      ‖num b0 b1 b2 (Complex.exp (ω * Complex.I))‖ / ‖den (-(p + q)) (p * q) (Complex.exp (ω * Complex.I))‖ *
        (a * Real.cos (ω * n + φ + (num b0 b1 b2 (Complex.exp (ω * Complex.I)) /
          den (-(p + q)) (p * q) (Complex.exp (ω * Complex.I))).arg))) atTop (𝓝 0) := by
  set E := Complex.exp (ω * Complex.I) with hE
  set H := num b0 b1 b2 E / den (-(p + q)) (p * q) E with hH
  have hnorm : ‖num b0 b1 b2 E‖ / ‖den (-(p + q)) (p * q) E‖ = ‖H‖ := by rw [hH, norm_div]
  rw [hnorm]
  -- the sinusoids as real parts
  set S : ℕ → ℂ := fun n => Complex.exp ((ω * n + φ : ℝ) * Complex.I) with hS
  have hS1 : ∀ n, S (n + 1) = S n * E := by
    intro n
    simp only [hS, hE, ← Complex.exp_add]
    congr 1
    push_cast
    ring
  have hin : ∀ n : ℕ, Real.cos (ω * n + φ) = (S n).re := by
    intro n
    simp only [hS]
    rw [Complex.exp_ofReal_mul_I_re]
  have hout : ∀ n : ℕ, ‖H‖ * (a * Real.cos (ω * n + φ + H.arg)) = (a * (H * S n)).re := by
    intro n
    have : H * S n = ‖H‖ * Complex.exp ((ω * n + φ + H.arg : ℝ) * Complex.I) := by
      conv_lhs => rw [← Complex.norm_mul_exp_arg_mul_I H]
      simp only [hS]
      rw [mul_assoc, ← Complex.exp_add]
      congr 2
      push_cast
      ring
    rw [this, Complex.re_ofReal_mul, Complex.re_ofReal_mul, Complex.exp_ofReal_mul_I_re]
    ring
  apply decay hp hq
  intro n
  simp only [hout]
  have hHD : H * den (-(p + q)) (p * q) E = num b0 b1 b2 E := by rw [hH]; field_simp
  have hc := hy n
  rw [hin (n + 2), hin (n + 1), hin n] at hc
  have hS2 : S (n + 2) = S n * E * E := by rw [hS1 (n + 1), hS1 n]
  have key : (b0 * (a * S (n + 2)) + b1 * (a * S (n + 1)) + b2 * (a * S n) : ℂ) -
      (a * (H * S (n + 2)) - (p + q) * (a * (H * S (n + 1))) + p * q * (a * (H * S n))) = 0 := by
    rw [hS2, hS1 n]
    have : H * (E ^ 2 + (-(p + q) : ℝ) * E + (p * q : ℝ)) = b0 * E ^ 2 + b1 * E + b2 := hHD
    push_cast at this
    linear_combination (-(a : ℂ) * S n) * this
  have kr := congrArg Complex.re key
  simp only [Complex.sub_re, Complex.add_re, Complex.zero_re] at kr
  have r1 : ∀ (u v : ℝ) (z : ℂ), ((u : ℂ) * (v * z)).re = u * (v * z.re) := by
    intro u v z; rw [Complex.re_ofReal_mul, Complex.re_ofReal_mul]
  have r2 : ∀ (z : ℂ), ((p + q : ℂ) * z).re = (p + q) * z.re := by
    intro z
    have : (p + q : ℂ) = ((p + q : ℝ) : ℂ) := by push_cast; rfl
    rw [this, Complex.re_ofReal_mul]
  have r3 : ∀ (z : ℂ), ((p * q : ℂ) * z).re = (p * q) * z.re := by
    intro z
    have : (p * q : ℂ) = ((p * q : ℝ) : ℂ) := by push_cast; rfl
    rw [this, Complex.re_ofReal_mul]
  rw [r1, r1, r1, r2, r3] at kr
  rw [hc]
  linear_combination kr

/-- The squared magnitude of a real quadratic on the unit circle. -/
theorem norm_sq_on_circle (b0 b1 b2 ω : ℝ) : ‖num b0 b1 b2 (Complex.exp (ω * Complex.I))‖ ^ 2 =
    b0 ^ 2 + b1 ^ 2 + b2 ^ 2 + 2 * b1 * (b0 + b2) * Real.cos ω + 2 * b0 * b2 * (2 * Real.cos ω ^ 2 - 1) := by
  have hre : (Complex.exp (ω * Complex.I)).re = Real.cos ω := Complex.exp_ofReal_mul_I_re ω
  have him : (Complex.exp (ω * Complex.I)).im = Real.sin ω := Complex.exp_ofReal_mul_I_im ω
  rw [← Complex.normSq_eq_norm_sq, Complex.normSq_apply]
  unfold num
  simp only [pow_two, Complex.add_re, Complex.add_im, Complex.mul_re, Complex.mul_im, Complex.ofReal_re, Complex.ofReal_im,
    hre, him]
  have hs := Real.sin_sq_add_cos_sq ω
  have hs' : Real.sin ω ^ 2 = 1 - Real.cos ω ^ 2 := by linarith
  have hs4 : Real.sin ω ^ 4 = (1 - Real.cos ω ^ 2) ^ 2 := by rw [← hs']; ring
  ring_nf
  rw [hs', hs4]
  ring

end Visr.Crossover
