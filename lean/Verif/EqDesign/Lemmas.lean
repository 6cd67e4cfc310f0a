import Verif.EqDesign.Spec
import Mathlib.Analysis.SpecificLimits.Normed
import Mathlib.Analysis.SpecialFunctions.Complex.Arg
import Mathlib.Analysis.Complex.Polynomial.Basic
import Mathlib.Analysis.Complex.Trigonometric
import Mathlib.Tactic.FieldSimp
import Mathlib.Tactic.LinearCombination

/-!
# Lemmas on second-order sections
-/

set_option linter.unusedSectionVars false

namespace Visr.EqDesign
open Visr Visr.Biquad Visr.Encode Filter Topology

/-! ### One-pole recursions -/

theorem onePole_bounded {q : ℂ} (hq : ‖q‖ < 1) {w u : ℕ → ℂ} (h : ∀ n, w (n + 1) = q * w n + u (n + 1))
    {M : ℝ} (hu : ∀ n, ‖u n‖ ≤ M) : ∃ B, ∀ n, ‖w n‖ ≤ B := by
  have hM : 0 ≤ M := (norm_nonneg _).trans (hu 0)
  have h1 : 0 < 1 - ‖q‖ := by linarith
  refine ⟨‖w 0‖ + M / (1 - ‖q‖), ?_⟩
  have hb : 0 ≤ M / (1 - ‖q‖) := by positivity
  have e : ‖q‖ * (M / (1 - ‖q‖)) + M = M / (1 - ‖q‖) := by field_simp; ring
  intro n
  induction n with
  | zero => linarith
  | succ n ih =>
    rw [h]
    refine (norm_add_le _ _).trans ?_
    rw [norm_mul]
    have h2 : ‖q‖ * ‖w n‖ ≤ ‖q‖ * (‖w 0‖ + M / (1 - ‖q‖)) := mul_le_mul_of_nonneg_left ih (norm_nonneg _)
    have h3 : ‖q‖ * ‖w 0‖ ≤ ‖w 0‖ := by
      have := mul_le_mul_of_nonneg_right hq.le (norm_nonneg (w 0))
      linarith
    have := hu (n + 1)
    rw [mul_add] at h2
    linarith

theorem onePole_null {q : ℂ} (hq : ‖q‖ < 1) {w u : ℕ → ℂ} (h : ∀ n, w (n + 1) = q * w n + u (n + 1))
    (hu : Tendsto u atTop (𝓝 0)) : Tendsto w atTop (𝓝 0) := by
  rw [Metric.tendsto_atTop] at hu ⊢
  intro ε hε
  have h1 : 0 < 1 - ‖q‖ := by linarith
  obtain ⟨N, hN⟩ := hu (ε / 2 * (1 - ‖q‖)) (by positivity)
  simp only [dist_zero_right] at hN ⊢
  have hk : ∀ k, ‖w (N + k)‖ ≤ ‖q‖ ^ k * ‖w N‖ + ε / 2 := by
    intro k
    induction k with
    | zero => simp; linarith
    | succ k ih =>
      rw [← add_assoc, h]
      refine (norm_add_le _ _).trans ?_
      rw [norm_mul]
      have := mul_le_mul_of_nonneg_left ih (norm_nonneg q)
      have h2 := (hN (N + k + 1) (by omega)).le
      rw [pow_succ]
      nlinarith
  have ht : Tendsto (fun k : ℕ => ‖q‖ ^ k * ‖w N‖) atTop (𝓝 0) := by
    simpa using (tendsto_pow_atTop_nhds_zero_of_lt_one (norm_nonneg q) hq).mul_const ‖w N‖
  rw [Metric.tendsto_atTop] at ht
  obtain ⟨K, hK⟩ := ht (ε / 2) (by positivity)
  refine ⟨N + K, fun n hn => ?_⟩
  obtain ⟨k, rfl⟩ := Nat.exists_eq_add_of_le (show N ≤ n by omega)
  have := hK k (by omega)
  rw [dist_zero_right, Real.norm_eq_abs, abs_of_nonneg (by positivity)] at this
  have := hk k
  linarith

/-! ### Poles -/

/-- The poles of a section lie within the unit circle. -/
def Poles (c : Coef ℝ) (p q : ℂ) : Prop :=
  p + q = -(c.a1 : ℂ) ∧ p * q = (c.a2 : ℂ) ∧ ‖p‖ < 1 ∧ ‖q‖ < 1

theorem exists_poles {c : Coef ℝ} (h1 : |c.a2| < 1) (h2 : |c.a1| < 1 + c.a2) : ∃ p q, Poles c p q := by
  unfold Poles
  revert h1 h2
  generalize c.a1 = a1
  generalize c.a2 = a2
  intro h1 h2
  rw [abs_lt] at h1 h2
  rcases le_or_gt 0 (a1 ^ 2 - 4 * a2) with hd | hd
  · have hs := Real.sq_sqrt hd
    have hs0 := Real.sqrt_nonneg (a1 ^ 2 - 4 * a2)
    set s := Real.sqrt (a1 ^ 2 - 4 * a2) with hsd
    have key : ∀ p q : ℝ, p + q = -a1 → p * q = a2 → |p| < 1 := by
      intro p q e1 e2
      have f1 : 0 < (1 - p) * (1 - q) := by nlinarith
      have f2 : 0 < (1 + p) * (1 + q) := by nlinarith
      rw [abs_lt]
      constructor
      · by_contra hc
        push Not at hc
        have : 1 + q < 0 := by
          by_contra hq
          push Not at hq
          nlinarith
        nlinarith
      · by_contra hc
        push Not at hc
        have : 1 - q < 0 := by
          by_contra hq
          push Not at hq
          nlinarith
        nlinarith
    have e1 : (-a1 + s) / 2 + (-a1 - s) / 2 = -a1 := by ring
    have e2 : (-a1 + s) / 2 * ((-a1 - s) / 2) = a2 := by nlinarith
    refine ⟨(((-a1 + s) / 2 : ℝ) : ℂ), (((-a1 - s) / 2 : ℝ) : ℂ), ?_, ?_, ?_, ?_⟩
    · rw [← Complex.ofReal_add, e1, Complex.ofReal_neg]
    · rw [← Complex.ofReal_mul, e2]
    · rw [Complex.norm_real]; exact key _ _ e1 e2
    · rw [Complex.norm_real]; exact key _ _ (by rw [add_comm]; exact e1) (by rw [mul_comm]; exact e2)
  · have hd' : 0 ≤ 4 * a2 - a1 ^ 2 := by linarith
    have hs := Real.sq_sqrt hd'
    set s := Real.sqrt (4 * a2 - a1 ^ 2) with hsd
    have hn : ∀ t : ℝ, t ^ 2 = 4 * a2 - a1 ^ 2 → ‖(⟨-a1 / 2, t / 2⟩ : ℂ)‖ < 1 := by
      intro t ht
      have : ‖(⟨-a1 / 2, t / 2⟩ : ℂ)‖ ^ 2 < 1 := by
        rw [Complex.sq_norm, Complex.normSq_mk]
        nlinarith
      nlinarith [norm_nonneg (⟨-a1 / 2, t / 2⟩ : ℂ)]
    refine ⟨⟨-a1 / 2, s / 2⟩, ⟨-a1 / 2, -s / 2⟩, ?_, ?_, hn s hs, ?_⟩
    · apply Complex.ext <;> simp <;> ring
    · apply Complex.ext
      · simp; nlinarith
      · simp; ring
    · exact hn (-s) (by rw [neg_sq]; exact hs)

/-! ### Complex signals -/

/-- The coefficients as complex numbers. -/
noncomputable def toC (c : Coef ℝ) : Coef ℂ := ⟨c.b0, c.b1, c.b2, c.a1, c.a2⟩

theorem re_iir (c : Coef ℝ) (x : ℕ → ℂ) : ∀ n, (iir (fun _ => toC c) x n).re = iir (fun _ => c) (fun k => (x k).re) n
  | 0 => by simp [iir, toC]
  | 1 => by simp [iir, toC]
  | n + 2 => by
    rw [iir, iir]
    simp only [Complex.add_re, Complex.sub_re]
    rw [show (toC c).b0 = ((c.b0 : ℝ) : ℂ) from rfl, show (toC c).b1 = ((c.b1 : ℝ) : ℂ) from rfl,
      show (toC c).b2 = ((c.b2 : ℝ) : ℂ) from rfl, show (toC c).a1 = ((c.a1 : ℝ) : ℂ) from rfl,
      show (toC c).a2 = ((c.a2 : ℝ) : ℂ) from rfl]
    simp only [Complex.re_ofReal_mul]
    rw [re_iir c x (n + 1), re_iir c x n]

theorem ofReal_iir (c : Coef ℝ) (x : ℕ → ℝ) :
    ∀ n, ((iir (fun _ => c) x n : ℝ) : ℂ) = iir (fun _ => toC c) (fun k => (x k : ℂ)) n
  | 0 => by simp [iir, toC]
  | 1 => by simp [iir, toC]
  | n + 2 => by
    rw [iir, iir]
    push_cast
    rw [ofReal_iir c x (n + 1), ofReal_iir c x n]
    rfl

theorem iir_linear (c : Coef ℂ) (a : ℂ) (x y : ℕ → ℂ) :
    ∀ n, iir (fun _ => c) (fun k => a * x k + y k) n = a * iir (fun _ => c) x n + iir (fun _ => c) y n
  | 0 => by simp [iir]; ring
  | 1 => by simp [iir]; ring
  | n + 2 => by
    rw [iir, iir, iir, iir_linear c a x y (n + 1), iir_linear c a x y n]
    ring

/-- The non-recursive part. -/
noncomputable def feed (c : Coef ℂ) (x : ℕ → ℂ) : ℕ → ℂ
  | 0 => c.b0 * x 0
  | 1 => c.b0 * x 1 + c.b1 * x 0
  | n + 2 => c.b0 * x (n + 2) + c.b1 * x (n + 1) + c.b2 * x n

/-- Output filtered by one of the poles. -/
noncomputable def half (p : ℂ) (y : ℕ → ℂ) : ℕ → ℂ
  | 0 => y 0
  | n + 1 => y (n + 1) - p * y n

theorem half_rec {c : Coef ℝ} {p q : ℂ} (h : Poles c p q) (x : ℕ → ℂ) (n : ℕ) :
    half p (iir (fun _ => toC c) x) (n + 1) = q * half p (iir (fun _ => toC c) x) n + feed (toC c) x (n + 1) := by
  obtain ⟨e1, e2, -, -⟩ := h
  have h1 : (toC c).a1 = -(p + q) := by rw [e1, neg_neg]; rfl
  have h2 : (toC c).a2 = p * q := by rw [e2]; rfl
  cases n with
  | zero => simp [half, iir, feed, h1]; ring
  | succ n =>
    rw [half, half, iir, feed, h1, h2]
    ring

theorem feed_bounded (c : Coef ℂ) {x : ℕ → ℂ} {M : ℝ} (h : ∀ n, ‖x n‖ ≤ M) :
    ∀ n, ‖feed c x n‖ ≤ (‖c.b0‖ + ‖c.b1‖ + ‖c.b2‖) * M := by
  have hM : 0 ≤ M := (norm_nonneg _).trans (h 0)
  have hm : ∀ (a : ℂ) k, ‖a * x k‖ ≤ ‖a‖ * M := fun a k => by
    rw [norm_mul]; exact mul_le_mul_of_nonneg_left (h k) (norm_nonneg _)
  have hp : ∀ a : ℂ, 0 ≤ ‖a‖ * M := fun a => mul_nonneg (norm_nonneg _) hM
  intro n
  rw [add_mul, add_mul]
  match n with
  | 0 => have := hm c.b0 0; have := hp c.b1; have := hp c.b2; simp only [feed]; linarith
  | 1 =>
    have := hm c.b0 1; have := hm c.b1 0; have := hp c.b2
    simp only [feed]
    exact (norm_add_le _ _).trans (by linarith)
  | n + 2 =>
    have := hm c.b0 (n + 2); have := hm c.b1 (n + 1); have := hm c.b2 n
    simp only [feed]
    exact (norm_add_le _ _).trans (by have := norm_add_le (c.b0 * x (n + 2)) (c.b1 * x (n + 1)); linarith)

theorem feed_null (c : Coef ℂ) {x : ℕ → ℂ} (h : Tendsto x atTop (𝓝 0)) : Tendsto (feed c x) atTop (𝓝 0) := by
  rw [← tendsto_add_atTop_iff_nat 2]
  have h0 := ((tendsto_add_atTop_iff_nat 2).2 h).const_mul c.b0
  have h1 := ((tendsto_add_atTop_iff_nat 1).2 h).const_mul c.b1
  have h2 := h.const_mul c.b2
  have := (h0.add h1).add h2
  simpa [feed] using this

theorem unhalf (p : ℂ) (y : ℕ → ℂ) (n : ℕ) : y (n + 1) = p * y n + half p y (n + 1) := by
  rw [half]; ring

theorem iir_bounded {c : Coef ℝ} {p q : ℂ} (h : Poles c p q) {x : ℕ → ℂ} {M : ℝ} (hx : ∀ n, ‖x n‖ ≤ M) :
    ∃ B, ∀ n, ‖iir (fun _ => toC c) x n‖ ≤ B := by
  obtain ⟨B, hB⟩ := onePole_bounded h.2.2.2 (half_rec h x) (feed_bounded (toC c) hx)
  exact onePole_bounded h.2.2.1 (unhalf p _) hB

theorem iir_null {c : Coef ℝ} {p q : ℂ} (h : Poles c p q) {x : ℕ → ℂ} (hx : Tendsto x atTop (𝓝 0)) :
    Tendsto (iir (fun _ => toC c) x) atTop (𝓝 0) :=
  onePole_null h.2.2.1 (unhalf p _) (onePole_null h.2.2.2 (half_rec h x) (feed_null (toC c) hx))

/-- Steady state for a complex exponential. -/
theorem iir_exponential {c : Coef ℝ} {p q : ℂ} (h : Poles c p q) {z H : ℂ}
    (hH : H * (z ^ 2 + c.a1 * z + c.a2) = c.b0 * z ^ 2 + c.b1 * z + c.b2) (a : ℂ) :
    Tendsto (fun n => iir (fun _ => toC c) (fun k => a * z ^ k) n - H * (a * z ^ n)) atTop (𝓝 0) := by
  obtain ⟨e1, e2, hp, hq⟩ := h
  have h1 : (c.a1 : ℂ) = -(p + q) := by rw [e1, neg_neg]
  have h2 : (c.a2 : ℂ) = p * q := by rw [e2]
  rw [h1, h2] at hH
  set e : ℕ → ℂ := fun n => iir (fun _ => toC c) (fun k => a * z ^ k) n - H * (a * z ^ n) with he
  have hrec : ∀ n, e (n + 2) = (p + q) * e (n + 1) - p * q * e n := by
    intro n
    simp only [he]
    rw [iir]
    simp only [toC]
    rw [h1, h2]
    rw [pow_succ z (n + 1), pow_succ z n]
    have := congrArg (fun t => t * (a * z ^ n)) hH
    linear_combination -this
  have hw : Tendsto (fun n => e (n + 1) - p * e n) atTop (𝓝 0) := by
    refine onePole_null hq (u := fun _ => 0) ?_ tendsto_const_nhds
    intro n
    rw [hrec n]; ring
  have hw' : Tendsto (fun n => if n = 0 then 0 else e n - p * e (n - 1)) atTop (𝓝 0) := by
    rw [← tendsto_add_atTop_iff_nat 1]
    simpa using hw
  refine onePole_null hp ?_ hw'
  intro n
  simp

/-! ### Cascades over the complex numbers -/

/-- A cascade with constant complex coefficients. -/
noncomputable def chain : List (Coef ℂ) → (ℕ → ℂ) → ℕ → ℂ
  | [], x => x
  | c :: cs, x => chain cs (iir (fun _ => c) x)

theorem cascade_shift {K : Type*} [Field K] (c : Nat → Nat → Coef K) (x : Nat → K) (n : Nat) :
    cascade c x (n + 1) = cascade (fun t k => c t (k + 1)) (iir (fun t => c t 0) x) n := by
  induction n with
  | zero => rfl
  | succ n ih => rw [cascade, ih, cascade]

theorem re_chain (cs : List (Coef ℝ)) (x : ℕ → ℂ) (n : ℕ) :
    (chain (cs.map toC) x n).re = filtered cs (fun k => (x k).re) n := by
  induction cs generalizing x with
  | nil => rfl
  | cons c cs ih =>
    rw [List.map_cons, chain, ih, filtered, filtered, List.length_cons, cascade_shift]
    have : (fun k => (iir (fun _ => toC c) x k).re) = iir (fun _ => c) fun k => (x k).re := funext (re_iir c x)
    rw [this]
    simp

theorem chain_null {cs : List (Coef ℝ)} (h : ∀ c ∈ cs, ∃ p q, Poles c p q) {x : ℕ → ℂ}
    (hx : Tendsto x atTop (𝓝 0)) : Tendsto (chain (cs.map toC) x) atTop (𝓝 0) := by
  induction cs generalizing x with
  | nil => exact hx
  | cons c cs ih =>
    obtain ⟨p, q, hc⟩ := h c (by simp)
    exact ih (fun d hd => h d (by simp [hd])) (iir_null hc hx)

theorem chain_bounded {cs : List (Coef ℝ)} (h : ∀ c ∈ cs, ∃ p q, Poles c p q) {x : ℕ → ℂ} {M : ℝ}
    (hx : ∀ n, ‖x n‖ ≤ M) : ∃ B, ∀ n, ‖chain (cs.map toC) x n‖ ≤ B := by
  induction cs generalizing x M with
  | nil => exact ⟨M, hx⟩
  | cons c cs ih =>
    obtain ⟨p, q, hc⟩ := h c (by simp)
    obtain ⟨B, hB⟩ := iir_bounded hc hx
    exact ih (fun d hd => h d (by simp [hd])) hB

theorem chain_linear (cs : List (Coef ℂ)) (a : ℂ) (x y : ℕ → ℂ) (n : ℕ) :
    chain cs (fun k => a * x k + y k) n = a * chain cs x n + chain cs y n := by
  induction cs generalizing x y with
  | nil => rfl
  | cons c cs ih =>
    simp only [chain]
    rw [← ih]
    congr 1
    exact funext (iir_linear c a x y)

/-- The equation of the complex gain of a section at `z`. -/
def Gain (c : Coef ℝ) (z H : ℂ) : Prop :=
  H * (z ^ 2 + c.a1 * z + c.a2) = c.b0 * z ^ 2 + c.b1 * z + c.b2

/-- Steady state of a cascade. -/
theorem chain_exponential {cs : List (Coef ℝ)} (h : ∀ c ∈ cs, ∃ p q, Poles c p q) {z : ℂ} {Hs : List ℂ}
    (hH : List.Forall₂ (fun c H => Gain c z H) cs Hs) (a : ℂ) :
    Tendsto (fun n => chain (cs.map toC) (fun k => a * z ^ k) n - Hs.prod * (a * z ^ n)) atTop (𝓝 0) := by
  induction hH generalizing a with
  | nil => simp [chain]
  | @cons c H cs Hs h1 h2 ih =>
    obtain ⟨p, q, hc⟩ := h c (by simp)
    have hcs : ∀ d ∈ cs, ∃ p q, Poles d p q := fun d hd => h d (by simp [hd])
    set e : ℕ → ℂ := fun n => iir (fun _ => toC c) (fun k => a * z ^ k) n - H * (a * z ^ n) with he
    have hn : Tendsto (chain (cs.map toC) e) atTop (𝓝 0) := chain_null hcs (iir_exponential hc h1 a)
    have heq : iir (fun _ => toC c) (fun k => a * z ^ k) = fun n => H * (a * z ^ n) + e n := by
      funext n; simp only [he]; ring
    have hs := ((ih hcs a).const_mul H).add hn
    rw [mul_zero, add_zero] at hs
    refine hs.congr fun n => ?_
    rw [List.map_cons, chain, heq, chain_linear, List.prod_cons]
    ring

/-- From complex exponentials to sinusoids. -/
theorem responds_of_gain {cs : List (Coef ℝ)} (h : ∀ c ∈ cs, ∃ p q, Poles c p q) {fs tone : ℝ} {Hs : List ℂ}
    (hH : List.Forall₂ (fun c H => Gain c (Complex.exp (Complex.I * (2 * Real.pi * tone / fs : ℝ))) H) cs Hs) :
    Responds (filtered cs) fs tone Hs.prod := by
  intro phase
  set w : ℝ := 2 * Real.pi * tone / fs with hw
  set H := Hs.prod with hHs
  have hz : ∀ n : ℕ, Complex.exp (Complex.I * phase) * Complex.exp (Complex.I * w) ^ n =
      Complex.exp ((w * n + phase : ℝ) * Complex.I) := by
    intro n
    rw [← Complex.exp_nat_mul, ← Complex.exp_add]
    congr 1
    push_cast
    ring
  have ht := chain_exponential h hH (Complex.exp (Complex.I * phase))
  have hre := (Complex.continuous_re.tendsto 0).comp ht
  rw [Complex.zero_re] at hre
  refine hre.congr fun n => ?_
  rw [Function.comp_apply, Complex.sub_re, re_chain]
  have hcos : (fun k => (Complex.exp (Complex.I * phase) * Complex.exp (Complex.I * w) ^ k).re) =
      fun k : ℕ => Real.cos (w * k + phase) := by
    funext k
    rw [hz, Complex.exp_ofReal_mul_I_re]
  rw [hcos, hz]
  congr 1
  conv_lhs => rw [← Complex.norm_mul_exp_arg_mul_I Hs.prod]
  rw [mul_assoc, ← Complex.exp_add, Complex.re_ofReal_mul, ← add_mul, ← Complex.ofReal_add,
    Complex.exp_ofReal_mul_I_re]
  congr 2
  ring

theorem stable_of_poles {cs : List (Coef ℝ)} (h : ∀ c ∈ cs, ∃ p q, Poles c p q) : Stable (filtered cs) := by
  intro x M hx
  obtain ⟨B, hB⟩ := chain_bounded h (x := fun n => (x n : ℂ)) (M := M) (fun n => by
    rw [Complex.norm_real]; exact hx n)
  refine ⟨B, fun n => ?_⟩
  have := re_chain cs (fun n => (x n : ℂ)) n
  simp only [Complex.ofReal_re] at this
  rw [← this]
  exact (Complex.abs_re_le_norm _).trans (hB n)

/-! ### The designed coefficients -/

theorem sqrt_dB (g : ℝ) : Real.sqrt (dB2linear g) = (10 : ℝ) ^ (g / 40) := by
  rw [Real.sqrt_eq_rpow, dB2linear, ← Real.rpow_mul (by norm_num)]
  congr 1
  norm_num
  ring

theorem halfGain_pos (p : Section ℝ) : 0 < halfGain p := Real.rpow_pos_of_pos (by norm_num) _

/-- Facts about the centre frequency. -/
theorem centre {fs : ℝ} {p : Section ℝ} (h : Realisable fs p) :
    0 < Real.tan (Real.pi * p.f / fs) ∧
    Real.cos (2 * Real.pi * p.f / fs) =
      (1 - Real.tan (Real.pi * p.f / fs) ^ 2) / (1 + Real.tan (Real.pi * p.f / fs) ^ 2) ∧
    Real.sin (2 * Real.pi * p.f / fs) =
      2 * Real.tan (Real.pi * p.f / fs) / (1 + Real.tan (Real.pi * p.f / fs) ^ 2) := by
  have hfs : 0 < fs := by have := h.fpos; have := h.flt; linarith
  have h0 : 0 < Real.pi * p.f / fs := by have := h.fpos; have := Real.pi_pos; positivity
  have h1 : Real.pi * p.f / fs < Real.pi / 2 := by
    rw [div_lt_iff₀ hfs]
    have := h.flt
    have := Real.pi_pos
    nlinarith
  have hc : 0 < Real.cos (Real.pi * p.f / fs) := Real.cos_pos_of_mem_Ioo ⟨by linarith, h1⟩
  have e : 2 * Real.pi * p.f / fs = 2 * (Real.pi * p.f / fs) := by ring
  refine ⟨Real.tan_pos_of_pos_of_lt_pi_div_two h0 h1, ?_, ?_⟩
  · rw [e, Real.cos_two_mul', Real.tan_eq_sin_div_cos]
    have := Real.sin_sq_add_cos_sq (Real.pi * p.f / fs)
    field_simp
    nlinarith
  · rw [e, Real.sin_two_mul, Real.tan_eq_sin_div_cos]
    have := Real.sin_sq_add_cos_sq (Real.pi * p.f / fs)
    field_simp
    rw [add_comm, this, mul_one]

/-- A point of the unit circle. -/
theorem circle_point {w t : ℝ} (hc : Real.cos (w / 2) ≠ 0) (ht : t = Real.tan (w / 2)) :
    Complex.exp (Complex.I * w) = (1 + Complex.I * t) / (1 - Complex.I * t) ∧ 1 - Complex.I * (t : ℂ) ≠ 0 := by
  have hne : 1 - Complex.I * (t : ℂ) ≠ 0 := by
    intro h
    have := congrArg Complex.re h
    simp at this
  refine ⟨?_, hne⟩
  rw [eq_div_iff hne]
  have e1 : Complex.exp (Complex.I * w) = Complex.exp ((w / 2 : ℝ) * Complex.I) ^ 2 := by
    rw [← Complex.exp_nat_mul]; congr 1; push_cast; ring
  rw [e1, Complex.exp_mul_I, ← Complex.ofReal_cos, ← Complex.ofReal_sin]
  have hs : Real.sin (w / 2) = t * Real.cos (w / 2) := by
    rw [ht, Real.tan_mul_cos hc]
  rw [hs]
  set c := Real.cos (w / 2) with hcd
  have h1 : c ^ 2 * (1 + t ^ 2) = 1 := by
    have := Real.sin_sq_add_cos_sq (w / 2)
    rw [hs, ← hcd] at this
    linarith
  have h1' : (c : ℂ) ^ 2 * (1 + (t : ℂ) ^ 2) = 1 := by exact_mod_cast h1
  push_cast
  linear_combination (1 + Complex.I * t) * h1' + (c : ℂ) ^ 2 * (t : ℂ) ^ 2 * (-1 - Complex.I * t) * Complex.I_sq

end Visr.EqDesign
