import Verif.Convolver.Model
import Mathlib.Analysis.SpecialFunctions.Trigonometric.Basic
import Mathlib.Algebra.BigOperators.Intervals
import Mathlib.Tactic.Ring
import Mathlib.Tactic.FieldSimp
import Mathlib.Tactic.Linarith

/-!
# What is assumed of the FFT library

`IsDft` is the contract of the FFT wrappers: the forward transform is the discrete Fourier transform of a real sequence of
length `2 L`, of which the bins `0, …, L` are returned, and the inverse transform evaluates the real-valued inverse from those
bins (the imaginary parts of bins `0` and `L` are ignored). That the default FFT (KISS FFT) meets the contract is proved in
`Verif.KissFft.Props`; the algorithms of FFTS and IPP are not modelled. All three wrappers declare the forward scaling factor 1
(`kiss_fft_wrapper.hpp:39`, `ffts_wrapper.hpp:48`, `ipp_fft_wrapper.hpp:39`); for IPP this is wrong
(`Verif.Decorrelation.Props`, `ipp_convolution_scaled`).

`Law` is the only consequence that the convolvers use; `isDft_law` derives it.
-/

namespace Visr.Convolver
open Visr Finset

/-- Contract of the FFT wrappers for transforms of length `2 L`. -/
structure IsDft (L : Nat) (fft : Fft ℝ ℂ) : Prop where
  fs : fft.fs = 1
  is : fft.is ≠ 0
  fwd : ∀ x, ∀ k ≤ L, fft.fwd x k =
    ∑ n ∈ range (2 * L), (x n : ℂ) * Complex.exp (-((2 * Real.pi * k * n / (2 * L) : ℝ) : ℂ) * Complex.I)
  inv : ∀ X, ∀ n < 2 * L, fft.inv X n = fft.is * ((X 0).re + (-1) ^ n * (X L).re +
    2 * ∑ k ∈ Ico 1 L, (X k * Complex.exp (((2 * Real.pi * k * n / (2 * L) : ℝ) : ℂ) * Complex.I)).re)

variable {K F : Type*} [Field K] [Field F] [Algebra K F]

/-- Cyclic convolution of sequences of length `N`. -/
def cyc (N : Nat) (x h : Nat → K) (n : Nat) : K := ∑ m ∈ range N, h m * x ((n + N - m) % N)

/-- Products of transforms are transformed back to scaled cyclic convolutions, and the inverse transform is linear. -/
structure Law (L : Nat) (fft : Fft K F) : Prop where
  fs : fft.fs = 1
  is : fft.is * (2 * L : Nat) ≠ 0
  zero : ∀ k ≤ L, fft.fwd (fun _ => 0) k = 0
  fwd_congr : ∀ x x' : Nat → K, (∀ i < 2 * L, x i = x' i) → ∀ k ≤ L, fft.fwd x k = fft.fwd x' k
  inv_congr : ∀ X Y : Nat → F, (∀ k ≤ L, X k = Y k) → ∀ n < 2 * L, fft.inv X n = fft.inv Y n
  inv_add : ∀ X Y : Nat → F, ∀ n < 2 * L, fft.inv (fun k => X k + Y k) n = fft.inv X n + fft.inv Y n
  inv_smul : ∀ (g : K) (X : Nat → F), ∀ n < 2 * L, fft.inv (fun k => algebraMap K F g * X k) n = g * fft.inv X n
  inv_mul : ∀ x h : Nat → K, ∀ n < 2 * L,
    fft.inv (fun k => fft.fwd x k * fft.fwd h k) n = fft.is * (2 * L : Nat) * cyc (2 * L) x h n

/-- Orthogonality of the cosines. -/
theorem sum_cos (N : Nat) (hN : 0 < N) (j : ℤ) :
    ∑ k ∈ range N, Real.cos (2 * Real.pi * k * j / N) = if (N : ℤ) ∣ j then (N : ℝ) else 0 := by
  have hN' : (N : ℝ) ≠ 0 := by positivity
  split_ifs with h
  · obtain ⟨m, rfl⟩ := h
    rw [Finset.sum_congr rfl (g := fun _ => (1 : ℝ))]
    · simp
    · intro k _
      have : 2 * Real.pi * k * ((N * m : ℤ) : ℝ) / N = ((k * m : ℤ) : ℝ) * (2 * Real.pi) := by
        push_cast; field_simp
      rw [this, Real.cos_int_mul_two_pi]
  · -- multiply by 2 sin(θ/2)
    set t : ℝ := Real.pi * j / N with ht
    have hs : Real.sin t ≠ 0 := by
      intro h0
      obtain ⟨m, hm⟩ := Real.sin_eq_zero_iff.mp h0
      apply h
      refine ⟨m, ?_⟩
      rw [ht, eq_div_iff hN'] at hm
      have := mul_left_cancel₀ Real.pi_ne_zero (show Real.pi * ((m : ℝ) * N) = Real.pi * (j : ℝ) by linarith)
      have h2 : (m * (N : ℤ) : ℤ) = j := by exact_mod_cast this
      rw [← h2]; ring
    have tele : ∀ n : Nat, 2 * Real.sin t * ∑ k ∈ range n, Real.cos (2 * Real.pi * k * j / N) =
        Real.sin ((2 * n - 1) * t) + Real.sin t := by
      intro n
      induction n with
      | zero => simp
      | succ n ih =>
        rw [Finset.sum_range_succ, mul_add, ih]
        have e1 : 2 * Real.pi * n * j / N = 2 * n * t := by rw [ht]; ring
        rw [e1]
        have := Real.sin_sub_sin ((2 * n + 1) * t) ((2 * n - 1) * t)
        rw [show ((2 * (n : ℝ) + 1) * t - (2 * n - 1) * t) / 2 = t by ring,
          show ((2 * (n : ℝ) + 1) * t + (2 * n - 1) * t) / 2 = 2 * n * t by ring] at this
        push_cast
        rw [show (2 * ((n : ℝ) + 1) - 1) * t = (2 * n + 1) * t by ring]
        linarith
    have h1 := tele N
    have h2 : Real.sin ((2 * N - 1) * t) = - Real.sin t := by
      have : (2 * (N : ℝ) - 1) * t = (j : ℝ) * (2 * Real.pi) - t := by rw [ht]; field_simp
      have h0 : Real.sin ((j : ℝ) * (2 * Real.pi)) = 0 :=
        Real.sin_eq_zero_iff.mpr ⟨2 * j, by push_cast; ring⟩
      rw [this, Real.sin_sub, h0, Real.cos_int_mul_two_pi]; ring
    rw [h2] at h1
    have h3 : 2 * Real.sin t * ∑ k ∈ range N, Real.cos (2 * Real.pi * k * j / N) = 0 := by linarith
    rcases mul_eq_zero.mp h3 with h4 | h4
    · exact absurd (by linarith : Real.sin t = 0) hs
    · exact h4

/-- The kernel of the real inverse transform. -/
theorem kernel (L : Nat) (hL : 0 < L) (j : ℤ) :
    1 + Real.cos (Real.pi * j) + 2 * ∑ k ∈ Ico 1 L, Real.cos (2 * Real.pi * k * j / (2 * L)) =
      if (2 * L : ℤ) ∣ j then ((2 * L : Nat) : ℝ) else 0 := by
  have hL' : (L : ℝ) ≠ 0 := by positivity
  have h := sum_cos (2 * L) (by omega) j
  push_cast at h
  push_cast
  rw [← h, Finset.range_eq_Ico, ← Finset.sum_Ico_consecutive _ (Nat.zero_le L) (by omega : L ≤ 2 * L),
    Finset.sum_eq_sum_Ico_succ_bot hL, Finset.sum_eq_sum_Ico_succ_bot (by omega : L < 2 * L)]
  have e0 : Real.cos (2 * Real.pi * ((0 : ℕ) : ℝ) * j / (2 * L)) = 1 := by simp
  have e1 : Real.cos (2 * Real.pi * (L : ℝ) * j / (2 * L)) = Real.cos (Real.pi * j) := by
    congr 1; field_simp
  have e2 : ∑ k ∈ Ico (L + 1) (2 * L), Real.cos (2 * Real.pi * (k : ℝ) * j / (2 * L)) =
      ∑ k ∈ Ico 1 L, Real.cos (2 * Real.pi * (k : ℝ) * j / (2 * L)) := by
    have hr := Finset.sum_Ico_reflect (fun k : ℕ => Real.cos (2 * Real.pi * (k : ℝ) * j / (2 * L))) 1
      (show L ≤ 2 * L + 1 by omega)
    rw [show 2 * L + 1 - L = L + 1 by omega, show 2 * L + 1 - 1 = 2 * L by omega] at hr
    rw [← hr]
    apply Finset.sum_congr rfl
    intro k hk
    have hk2 := (Finset.mem_Ico.mp hk).2
    rw [Nat.cast_sub (by omega : k ≤ 2 * L)]
    have : 2 * Real.pi * (((2 * L : ℕ) : ℝ) - k) * j / (2 * L) = (j : ℝ) * (2 * Real.pi) - 2 * Real.pi * k * j / (2 * L) := by
      push_cast; field_simp
    rw [this, Real.cos_int_mul_two_pi_sub]
  rw [e0, e1, e2]
  ring


/-- The real part of a product of three phases. -/
theorem re_phases (a b : ℝ) (u v w : ℝ) :
    (((a : ℂ) * Complex.exp (-(u : ℂ) * Complex.I)) * ((b : ℂ) * Complex.exp (-(v : ℂ) * Complex.I)) *
      Complex.exp ((w : ℂ) * Complex.I)).re = a * b * Real.cos (w - u - v) := by
  have : ((a : ℂ) * Complex.exp (-(u : ℂ) * Complex.I)) * ((b : ℂ) * Complex.exp (-(v : ℂ) * Complex.I)) *
      Complex.exp ((w : ℂ) * Complex.I) = ((a * b : ℝ) : ℂ) * Complex.exp (((w - u - v : ℝ) : ℂ) * Complex.I) := by
    push_cast
    rw [show ((w : ℂ) - u - v) * Complex.I = -(u : ℂ) * Complex.I + -(v : ℂ) * Complex.I + (w : ℂ) * Complex.I by ring,
      Complex.exp_add, Complex.exp_add]
    ring
  rw [this, Complex.re_ofReal_mul, Complex.exp_ofReal_mul_I_re]

/-- Real part of a bin of a product of transforms, after a phase shift. -/
theorem re_bin {L : Nat} {fft : Fft ℝ ℂ} (h : IsDft L fft) (x y : Nat → ℝ) (k : Nat) (hk : k ≤ L) (n : Nat) :
    ((fft.fwd x k * fft.fwd y k) * Complex.exp (((2 * Real.pi * k * n / (2 * L) : ℝ) : ℂ) * Complex.I)).re =
      ∑ p ∈ range (2 * L), ∑ m ∈ range (2 * L),
        x p * y m * Real.cos (2 * Real.pi * k * ((n : ℤ) - p - m : ℤ) / (2 * L)) := by
  rw [h.fwd x k hk, h.fwd y k hk, Finset.sum_mul_sum, Finset.sum_mul, Complex.re_sum]
  apply Finset.sum_congr rfl
  intro p _
  rw [Finset.sum_mul, Complex.re_sum]
  apply Finset.sum_congr rfl
  intro m _
  rw [re_phases]
  congr 2
  push_cast
  ring

/-- The inverse transform of one product. -/
theorem inv_mul {L : Nat} (hL : 0 < L) {fft : Fft ℝ ℂ} (h : IsDft L fft) (x y : Nat → ℝ) (n : Nat) (hn : n < 2 * L) :
    fft.inv (fun k => fft.fwd x k * fft.fwd y k) n = fft.is * (2 * L : Nat) * cyc (2 * L) x y n := by
  have hL' : (L : ℝ) ≠ 0 := by positivity
  rw [h.inv _ n hn, mul_assoc]
  congr 1
  have b0 := re_bin h x y 0 (Nat.zero_le _) n
  simp only [Nat.cast_zero, mul_zero, zero_mul, zero_div, Complex.ofReal_zero, Complex.exp_zero, mul_one,
    Real.cos_zero] at b0
  have bL := re_bin h x y L (le_refl _) n
  have hph : Complex.exp (((2 * Real.pi * L * n / (2 * L) : ℝ) : ℂ) * Complex.I) = (((-1 : ℝ) ^ n : ℝ) : ℂ) := by
    rw [show (2 * Real.pi * L * n / (2 * L) : ℝ) = n * Real.pi by field_simp]
    push_cast
    rw [mul_assoc, Complex.exp_nat_mul, Complex.exp_pi_mul_I]
  rw [hph, Complex.re_mul_ofReal] at bL
  have bk : ∑ k ∈ Ico 1 L, ((fft.fwd x k * fft.fwd y k) *
      Complex.exp (((2 * Real.pi * k * n / (2 * L) : ℝ) : ℂ) * Complex.I)).re =
      ∑ k ∈ Ico 1 L, ∑ p ∈ range (2 * L), ∑ m ∈ range (2 * L),
        x p * y m * Real.cos (2 * Real.pi * k * ((n : ℤ) - p - m : ℤ) / (2 * L)) := by
    apply Finset.sum_congr rfl
    intro k hk
    exact re_bin h x y k (Finset.mem_Ico.mp hk).2.le n
  rw [bk, b0, mul_comm ((-1 : ℝ) ^ n), bL]
  rw [Finset.sum_comm (s := Ico 1 L)]
  rw [Finset.mul_sum, ← Finset.sum_add_distrib, ← Finset.sum_add_distrib]
  simp only [cyc]
  rw [Finset.sum_congr rfl (g := fun p => ∑ m ∈ range (2 * L), x p * y m *
      (if (2 * L : ℤ) ∣ ((n : ℤ) - p - m) then ((2 * L : Nat) : ℝ) else 0))]
  · rw [Finset.sum_comm, Finset.mul_sum]
    apply Finset.sum_congr rfl
    intro m hm
    have hm := Finset.mem_range.mp hm
    rw [Finset.sum_eq_single ((n + 2 * L - m) % (2 * L))]
    · rw [if_pos]
      · ring
      · have : ((2 * L : ℕ) : ℤ) ∣ (n + 2 * L - m : ℤ) - ((n + 2 * L - m : ℤ) % (2 * L : ℕ)) := Int.dvd_self_sub_emod
        have h2 : (((n + 2 * L - m) % (2 * L) : ℕ) : ℤ) = (n + 2 * L - m : ℤ) % (2 * L : ℕ) := by
          rw [Int.natCast_mod, Nat.cast_sub (by omega)]; push_cast; rfl
        rw [h2]
        obtain ⟨q, hq⟩ := this
        refine ⟨q - 1, ?_⟩
        push_cast at hq ⊢
        linarith
    · intro p hp hne
      have hp := Finset.mem_range.mp hp
      rw [if_neg, mul_zero]
      intro hd
      apply hne
      obtain ⟨q, hq⟩ := hd
      have : (n + 2 * L - m : ℤ) = p + (2 * L : ℤ) * (q + 1) := by linarith
      have h2 : (((n + 2 * L - m) % (2 * L) : ℕ) : ℤ) = p := by
        rw [Int.natCast_mod, Nat.cast_sub (by omega)]
        push_cast
        rw [this, Int.add_mul_emod_self_left]
        exact Int.emod_eq_of_lt (by omega) (by omega)
      exact_mod_cast h2.symm
    · intro hnot
      exact absurd (Finset.mem_range.mpr (Nat.mod_lt _ (by omega))) hnot
  · intro p _
    rw [Finset.sum_comm (s := Ico 1 L), Finset.mul_sum, ← Finset.sum_add_distrib, ← Finset.sum_add_distrib]
    apply Finset.sum_congr rfl
    intro m _
    rw [← kernel L hL, ← Finset.mul_sum]
    have : Real.cos (2 * Real.pi * L * ((n : ℤ) - p - m : ℤ) / (2 * L)) = Real.cos (Real.pi * ((n : ℤ) - p - m : ℤ)) := by
      congr 1; field_simp
    rw [this]
    ring

/-- Every FFT wrapper satisfying the contract obeys the law used by the convolvers. -/
theorem isDft_law {L : Nat} (hL : 0 < L) {fft : Fft ℝ ℂ} (h : IsDft L fft) : Law L fft where
  fs := h.fs
  is := by
    refine mul_ne_zero h.is ?_
    have : (2 * L : Nat) ≠ 0 := by omega
    exact_mod_cast this
  zero := by intro k hk; rw [h.fwd _ k hk]; simp
  fwd_congr := by
    intro x x' hx k hk
    rw [h.fwd _ k hk, h.fwd _ k hk]
    apply Finset.sum_congr rfl
    intro i hi
    rw [hx i (Finset.mem_range.mp hi)]
  inv_congr := by
    intro X Y hXY n hn
    rw [h.inv X n hn, h.inv Y n hn, hXY 0 (Nat.zero_le _), hXY L (le_refl _)]
    congr 3
    apply Finset.sum_congr rfl
    intro k hk
    rw [hXY k (Finset.mem_Ico.mp hk).2.le]
  inv_add := by
    intro X Y n hn
    rw [h.inv _ n hn, h.inv X n hn, h.inv Y n hn]
    simp only [add_mul, Complex.add_re, Finset.sum_add_distrib]
    ring
  inv_smul := by
    intro g X n hn
    rw [h.inv _ n hn, h.inv X n hn]
    simp only [Complex.coe_algebraMap, mul_assoc, Complex.re_ofReal_mul, ← Finset.mul_sum]
    ring
  inv_mul := fun x y n hn => inv_mul hL h x y n hn

/-- The contract can be met: the discrete Fourier transform itself. -/
noncomputable def dft (L : Nat) : Fft ℝ ℂ where
  fwd x k := ∑ n ∈ range (2 * L), (x n : ℂ) * Complex.exp (-((2 * Real.pi * k * n / (2 * L) : ℝ) : ℂ) * Complex.I)
  inv X n := 1 * ((X 0).re + (-1) ^ n * (X L).re +
    2 * ∑ k ∈ Ico 1 L, (X k * Complex.exp (((2 * Real.pi * k * n / (2 * L) : ℝ) : ℂ) * Complex.I)).re)
  fs := 1
  is := 1

theorem dft_isDft (L : Nat) : IsDft L (dft L) := ⟨rfl, one_ne_zero, fun _ _ _ => rfl, fun _ _ _ => rfl⟩

end Visr.Convolver
