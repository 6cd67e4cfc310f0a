import Verif.KissFft.Model
import Verif.Decorrelation.Lemmas
import Mathlib.Tactic.LinearCombination
import Mathlib.Tactic.IntervalCases

/-!
# Lemmas: the complex transform
-/

namespace Visr.KissFft
open Visr Finset ComplexConjugate
open Visr.Decorrelation (rt rt_add rt_zero rt_mul_nat conj_rt rt_eq_one rt_N)

/-! ## Factors -/

/-- A complete list of factors: `p * m` is the length, and the rest of the list factors `m`. -/
def Valid : Nat → List (Nat × Nat) → Prop
  | _, [] => False
  | n, (p, m) :: rest => p * m = n ∧ 0 < m ∧ (m ≠ 1 → Valid m rest)

theorem candidate_ge (p : Nat) (hp : 2 ≤ p) : 2 ≤ candidate p := by
  unfold candidate; split_ifs <;> omega

theorem nextRadix_dvd (n fs p : Nat) (hp : 2 ≤ p) : nextRadix n fs p ∣ n ∧ (nextRadix n fs p = 1 → n = 1) := by
  induction p using nextRadix.induct (n := n) (floorSqrt := fs) with
  | case1 p h =>
    rw [nextRadix, if_pos h]
    exact ⟨Nat.dvd_of_mod_eq_zero h, by omega⟩
  | case2 p h h' =>
    rw [nextRadix, if_neg h, dif_pos h']
    exact ⟨dvd_rfl, id⟩
  | case3 p h h' ih =>
    rw [nextRadix, if_neg h, dif_neg h']
    exact ih (candidate_ge p hp)

theorem factorLoop_valid (n fs p : Nat) (hn : 0 < n) (hp : 2 ≤ p) : Valid n (factorLoop n fs p) := by
  induction n using Nat.strong_induction_on generalizing p with
  | _ n ih =>
    obtain ⟨hd, h1⟩ := nextRadix_dvd n fs p hp
    have hr0 : 0 < nextRadix n fs p := Nat.pos_of_dvd_of_pos hd hn
    have hm : nextRadix n fs p * (n / nextRadix n fs p) = n := Nat.mul_div_cancel' hd
    have hm0 : 0 < n / nextRadix n fs p := Nat.div_pos (Nat.le_of_dvd hn hd) hr0
    rw [factorLoop]
    refine ⟨hm, hm0, fun hne => ?_⟩
    have hr2 : 2 ≤ nextRadix n fs p := by
      by_contra hlt
      have h3 : nextRadix n fs p = 1 := by omega
      have h4 := h1 h3
      rw [h3, h4] at hne
      exact hne rfl
    have hlt : n / nextRadix n fs p < n := Nat.div_lt_self hn hr2
    rw [dif_pos ⟨by omega, hlt⟩]
    exact ih _ hlt _ hm0 hr2

theorem factor_valid (n : Nat) (hn : 0 < n) : Valid n (factor n) := factorLoop_valid n _ 4 hn (by norm_num)

/-! ## Roots of unity -/

theorem cexp_eq (t : ℝ) : cexp t = Complex.exp ((t : ℂ) * Complex.I) := Decorrelation.polar t

/-- The sign in the exponent. -/
def sgn (inverse : Bool) : ℤ := if inverse then 1 else -1

theorem twiddle_eq (N : Nat) (inv : Bool) (i : Nat) : twiddle N inv i = rt N (sgn inv * i) := by
  rw [twiddle, cexp_eq, rt]
  congr 3
  cases inv <;> simp [sgn] <;> ring

theorem rt_congr (N : Nat) (hN : 0 < N) {s t : ℤ} (h : (N : ℤ) ∣ s - t) : rt N s = rt N t := by
  have : s = t + (s - t) := by ring
  rw [this, rt_add, (rt_eq_one N hN _).mpr h, mul_one]

theorem rt_scale (N c : Nat) (hc : 0 < c) (t : ℤ) : rt (N * c) (t * c) = rt N t := by
  have hc' : (c : ℝ) ≠ 0 := by positivity
  rw [rt, rt]
  congr 3
  push_cast
  by_cases hN : (N : ℝ) = 0
  · simp [hN]
  · field_simp

theorem rt_two (s : Bool) : rt 2 (sgn s) = -1 := by
  rw [rt]
  have : (2 * Real.pi * (sgn s : ℝ) / ((2 : ℕ) : ℝ)) = Real.pi * (sgn s : ℝ) := by push_cast; ring
  rw [this, ← cexp_eq, cexp]
  cases s <;> simp [sgn] <;> apply Complex.ext <;> simp

theorem rt_four (s : Bool) : rt 4 (sgn s) = if s then Complex.I else -Complex.I := by
  rw [rt]
  have : (2 * Real.pi * (sgn s : ℝ) / ((4 : ℕ) : ℝ)) = (Real.pi / 2) * (sgn s : ℝ) := by push_cast; ring
  rw [this, ← cexp_eq, cexp]
  cases s <;> simp [sgn] <;> apply Complex.ext <;> simp

theorem rt_three_re (s : Bool) : (rt 3 (sgn s)).re = -(1 / 2) := by
  rw [rt, Complex.exp_ofReal_mul_I_re]
  have : Real.cos (2 * Real.pi * ((1 : ℤ) : ℝ) / ((3 : ℕ) : ℝ)) = -(1 / 2) := by
    rw [show (2 * Real.pi * ((1 : ℤ) : ℝ) / ((3 : ℕ) : ℝ)) = Real.pi - Real.pi / 3 by push_cast; ring, Real.cos_pi_sub,
      Real.cos_pi_div_three]
  cases s with
  | true => exact this
  | false =>
    rw [← this, ← Real.cos_neg]
    congr 1
    simp [sgn]
    ring

/-- What one run of the butterfly loop shall compute for the `j`-th output. -/
noncomputable def goal (s : Bool) (N fs p m u : Nat) (F : Nat → ℂ) (j : Nat) : ℂ :=
  ∑ q ∈ range p, F (u + q * m) * rt N (sgn s * (fs * q * (u + j * m)))

/-- The outputs in terms of the products with the twiddle factors and of the root of order `p`. -/
theorem goal_eq {s : Bool} {N fs p m u : Nat} {tw : Nat → ℂ} (hN : fs * (p * m) = N) (hN0 : 0 < N)
    (htw : ∀ i < N, tw i = rt N (sgn s * i)) (hu : u < m) (F : Nat → ℂ) (j : Nat) :
    goal s N fs p m u F j = ∑ q ∈ range p, F (u + q * m) * tw (u * (fs * q)) * rt p (sgn s) ^ (q * j) := by
  apply Finset.sum_congr rfl
  intro q hq
  have hq := Finset.mem_range.mp hq
  have hfs : 0 < fs := Nat.pos_of_ne_zero fun h => by rw [← hN, h] at hN0; simp at hN0
  have hm : 0 < m := by omega
  have hi : u * (fs * q) < N := by
    calc u * (fs * q) ≤ m * (fs * q) := Nat.mul_le_mul_right _ hu.le
      _ < m * (fs * p) := Nat.mul_lt_mul_of_pos_left (Nat.mul_lt_mul_of_pos_left hq hfs) hm
      _ = N := by rw [← hN]; ring
  have h1 : rt p (sgn s) ^ (q * j) = rt N (sgn s * ((q * j : ℕ) : ℤ) * ((fs * m : ℕ) : ℤ)) := by
    rw [← rt_mul_nat, ← rt_scale p (fs * m) (Nat.mul_pos hfs hm), show p * (fs * m) = N by rw [← hN]; ring]
  rw [htw _ hi, h1, mul_assoc (F (u + q * m)), ← rt_add]
  congr 2
  push_cast
  ring

theorem norm_one_inv {w : ℂ} (N : Nat) (t : ℤ) (h : w = rt N t) : conj w * w = 1 := by
  rw [h, conj_rt, ← rt_add, neg_add_cancel, rt_zero]

theorem rt_pow_self (p : Nat) (hp : 0 < p) (t : ℤ) : rt p t ^ p = 1 := by
  rw [← rt_mul_nat, mul_comm, rt_N p hp]

/-- The twiddle factor at a multiple of `fs * m`. -/
theorem tw_root {s : Bool} {N fs p m : Nat} {tw : Nat → ℂ} (hN : fs * (p * m) = N) (hN0 : 0 < N)
    (htw : ∀ i < N, tw i = rt N (sgn s * i)) (c : Nat) (hc : c < p) : tw (c * (fs * m)) = rt p (sgn s) ^ c := by
  have hp0 : 0 < fs * m := Nat.pos_of_ne_zero fun h => by
    rw [← hN, show fs * (p * m) = p * (fs * m) by ring, h] at hN0; simp at hN0
  have : c * (fs * m) < N := by
    rw [← hN, show fs * (p * m) = p * (fs * m) by ring]
    exact Nat.mul_lt_mul_of_pos_right hc hp0
  rw [htw _ this, ← rt_mul_nat, ← rt_scale p (fs * m) hp0, show p * (fs * m) = N by rw [← hN]; ring]
  congr 1
  push_cast
  ring

theorem body2_spec {s : Bool} {N fs m u : Nat} {tw : Nat → ℂ} (hN : fs * (2 * m) = N) (hN0 : 0 < N)
    (htw : ∀ i < N, tw i = rt N (sgn s * i)) (hu : u < m) (F : Nat → ℂ) (j : Nat) (hj : j < 2) (d : ℂ) :
    (body2 tw fs m u F).getD j d = goal s N fs 2 m u F j := by
  have h0 : tw 0 = 1 := by rw [htw 0 hN0]; simp [rt_zero]
  rw [goal_eq hN hN0 htw hu, rt_two]
  interval_cases j <;> simp [body2, Finset.sum_range_succ, h0] <;> ring

theorem body3_spec {s : Bool} {N fs m u : Nat} {tw : Nat → ℂ} (hN : fs * (3 * m) = N) (hN0 : 0 < N)
    (htw : ∀ i < N, tw i = rt N (sgn s * i)) (hu : u < m) (F : Nat → ℂ) (j : Nat) (hj : j < 3) (d : ℂ) :
    (body3 tw fs m u F).getD j d = goal s N fs 3 m u F j := by
  have h0 : tw 0 = 1 := by rw [htw 0 hN0]; simp [rt_zero]
  have he : tw (fs * m) = rt 3 (sgn s) := by
    have := tw_root hN hN0 htw 1 (by norm_num)
    simpa using this
  rw [goal_eq hN hN0 htw hu]
  have hre := rt_three_re s
  have hc : conj (rt 3 (sgn s)) * rt 3 (sgn s) = 1 := norm_one_inv 3 (sgn s) rfl
  have h3 : rt 3 (sgn s) ^ 3 = 1 := rt_pow_self 3 (by norm_num) _
  have hne : rt 3 (sgn s) ≠ 0 := fun h => by rw [h] at h3; norm_num at h3
  have h2 : rt 3 (sgn s) ^ 2 = conj (rt 3 (sgn s)) := by
    apply mul_right_cancel₀ hne
    rw [hc, ← pow_succ, h3]
  have h4 : rt 3 (sgn s) ^ 4 = rt 3 (sgn s) := by rw [pow_succ, h3, one_mul]
  generalize hw : rt 3 (sgn s) = w at *
  interval_cases j <;> simp only [body3, Finset.sum_range_succ, Finset.sum_range_zero, he, List.getD_cons_zero,
    List.getD_cons_succ, Nat.mul_zero, Nat.mul_one, zero_mul, zero_add, add_zero, pow_zero, one_mul, mul_one, pow_one, h0,
    show 2 * 2 = 4 from rfl, h2, h4] <;>
  apply Complex.ext <;>
  simp only [Complex.add_re, Complex.add_im, Complex.mul_re, Complex.mul_im, Complex.sub_re, Complex.sub_im, Complex.conj_re,
    Complex.conj_im, hre] <;> ring

theorem body4_spec {s : Bool} {N fs m u : Nat} {tw : Nat → ℂ} (hN : fs * (4 * m) = N) (hN0 : 0 < N)
    (htw : ∀ i < N, tw i = rt N (sgn s * i)) (hu : u < m) (F : Nat → ℂ) (j : Nat) (hj : j < 4) (d : ℂ) :
    (body4 tw s fs m u F).getD j d = goal s N fs 4 m u F j := by
  have h0 : tw 0 = 1 := by rw [htw 0 hN0]; simp [rt_zero]
  rw [goal_eq hN hN0 htw hu, rt_four]
  have hI2 : Complex.I ^ 2 = -1 := Complex.I_sq
  have hI3 : Complex.I ^ 3 = -Complex.I := by rw [pow_succ, hI2]; ring
  have hI4 : Complex.I ^ 4 = 1 := Complex.I_pow_four
  have hI6 : Complex.I ^ 6 = -1 := by rw [show 6 = 4 + 2 from rfl, pow_add, hI4, hI2]; ring
  have hI9 : Complex.I ^ 9 = Complex.I := by rw [show 9 = 4 + 4 + 1 from rfl, pow_add, pow_add, hI4]; ring
  have hN2 : (-Complex.I) ^ 2 = -1 := by rw [neg_sq, hI2]
  have hN3 : (-Complex.I) ^ 3 = Complex.I := by rw [pow_succ, hN2]; ring
  have hN4 : (-Complex.I) ^ 4 = 1 := by rw [show 4 = 2 + 2 from rfl, pow_add, hN2]; ring
  have hN6 : (-Complex.I) ^ 6 = -1 := by rw [show 6 = 4 + 2 from rfl, pow_add, hN4, hN2]; ring
  have hN9 : (-Complex.I) ^ 9 = -Complex.I := by rw [show 9 = 4 + 4 + 1 from rfl, pow_add, pow_add, hN4]; ring
  cases s <;> interval_cases j <;> simp only [body4, Finset.sum_range_succ, Finset.sum_range_zero, List.getD_cons_zero,
    List.getD_cons_succ, Nat.mul_zero, Nat.mul_one, zero_mul, zero_add, add_zero, pow_zero, one_mul, mul_one, pow_one, h0,
    show 2 * 2 = 4 from rfl, show 2 * 3 = 6 from rfl, show 3 * 2 = 6 from rfl, show 3 * 3 = 9 from rfl, hI2, hI3, hI4, hI6, hI9,
    hN2, hN3, hN4, hN6, hN9, if_true, if_false, Bool.false_eq_true] <;>
  apply Complex.ext <;>
  simp only [Complex.add_re, Complex.add_im, Complex.mul_re, Complex.mul_im, Complex.sub_re, Complex.sub_im, Complex.I_re,
    Complex.I_im, Complex.neg_re, Complex.neg_im, Complex.one_re, Complex.one_im] <;> ring

theorem body5_spec {s : Bool} {N fs m u : Nat} {tw : Nat → ℂ} (hN : fs * (5 * m) = N) (hN0 : 0 < N)
    (htw : ∀ i < N, tw i = rt N (sgn s * i)) (hu : u < m) (F : Nat → ℂ) (j : Nat) (hj : j < 5) (d : ℂ) :
    (body5 tw fs m u F).getD j d = goal s N fs 5 m u F j := by
  have h0 : tw 0 = 1 := by rw [htw 0 hN0]; simp [rt_zero]
  have hya : tw (fs * m) = rt 5 (sgn s) := by
    have := tw_root hN hN0 htw 1 (by norm_num)
    simpa using this
  have hyb : tw (fs * 2 * m) = rt 5 (sgn s) ^ 2 := by
    have := tw_root hN hN0 htw 2 (by norm_num)
    rwa [show 2 * (fs * m) = fs * 2 * m by ring] at this
  rw [goal_eq hN hN0 htw hu]
  have hc : conj (rt 5 (sgn s)) * rt 5 (sgn s) = 1 := norm_one_inv 5 (sgn s) rfl
  have h5 : rt 5 (sgn s) ^ 5 = 1 := rt_pow_self 5 (by norm_num) _
  generalize hw : rt 5 (sgn s) = w at *
  have hne : w ≠ 0 := fun h => by rw [h] at h5; norm_num at h5
  have h4 : w ^ 4 = conj w := by
    apply mul_right_cancel₀ hne
    rw [hc, ← pow_succ, h5]
  have h3 : w ^ 3 = conj (w ^ 2) := by
    apply mul_right_cancel₀ (pow_ne_zero 2 hne)
    rw [← pow_add, h5, map_pow, ← mul_pow, hc, one_pow]
  have h6 : w ^ 6 = w := by rw [show 6 = 5 + 1 from rfl, pow_add, h5]; ring
  have h8 : w ^ 8 = conj (w ^ 2) := by rw [show 8 = 5 + 3 from rfl, pow_add, h5, h3]; ring
  have h9 : w ^ 9 = conj w := by rw [show 9 = 5 + 4 from rfl, pow_add, h5, h4]; ring
  have h12 : w ^ 12 = w ^ 2 := by rw [show 12 = 5 + 5 + 2 from rfl, pow_add, pow_add, h5]; ring
  have h16 : w ^ 16 = w := by rw [show 16 = 5 + 5 + 5 + 1 from rfl, pow_add, pow_add, pow_add, h5]; ring
  have i2 : u * (fs * 2) = 2 * u * fs := by ring
  have i3 : u * (fs * 3) = 3 * u * fs := by ring
  have i4 : u * (fs * 4) = 4 * u * fs := by ring
  generalize hv : w ^ 2 = v at *
  interval_cases j <;> simp only [body5, Finset.sum_range_succ, Finset.sum_range_zero, List.getD_cons_zero,
    List.getD_cons_succ, Nat.mul_zero, Nat.mul_one, zero_mul, zero_add, add_zero, pow_zero, one_mul, mul_one, pow_one, h0,
    show 2 * 2 = 4 from rfl, show 2 * 3 = 6 from rfl, show 3 * 2 = 6 from rfl, show 3 * 3 = 9 from rfl,
    show 2 * 4 = 8 from rfl, show 4 * 2 = 8 from rfl, show 3 * 4 = 12 from rfl, show 4 * 3 = 12 from rfl,
    show 4 * 4 = 16 from rfl, hv, h3, h4, h6, h8, h9, h12, h16, i2, i3, i4, hya, hyb] <;>
  apply Complex.ext <;>
  simp only [Complex.add_re, Complex.add_im, Complex.mul_re, Complex.mul_im, Complex.sub_re, Complex.sub_im, Complex.conj_re,
    Complex.conj_im] <;> ring

theorem genericSum_eq (tw : Nat → ℂ) (N fs k : Nat) (scratch : Nat → ℂ) (hk : fs * k < N) (cnt q t : Nat) (ht : t < N) (acc : ℂ) :
    genericSum tw N fs k scratch cnt q t acc =
      acc + ∑ i ∈ range cnt, scratch (q + i) * tw ((t + (i + 1) * (fs * k)) % N) := by
  induction cnt generalizing q t acc with
  | zero => simp [genericSum]
  | succ cnt ih =>
    have ht' : (if N ≤ t + fs * k then t + fs * k - N else t + fs * k) = (t + fs * k) % N := by
      split_ifs with h
      · rw [Nat.mod_eq_sub_mod h, Nat.mod_eq_of_lt (by omega)]
      · rw [Nat.mod_eq_of_lt (by omega)]
    simp only [genericSum]
    rw [ht', ih _ _ (Nat.mod_lt _ (by omega)), Finset.sum_range_succ' _ cnt]
    have e : ∀ i ∈ range cnt, scratch (q + 1 + i) * tw (((t + fs * k) % N + (i + 1) * (fs * k)) % N) =
        scratch (q + (i + 1)) * tw ((t + (i + 1 + 1) * (fs * k)) % N) := by
      intro i _
      rw [Nat.mod_add_mod, show q + 1 + i = q + (i + 1) by ring,
        show t + fs * k + (i + 1) * (fs * k) = t + (i + 1 + 1) * (fs * k) by ring]
    rw [Finset.sum_congr rfl e]
    simp only [Nat.add_zero, zero_add, one_mul]
    ring

theorem bodyGeneric_spec {s : Bool} {N fs p m u : Nat} {tw : Nat → ℂ} (hN : fs * (p * m) = N) (hN0 : 0 < N)
    (htw : ∀ i < N, tw i = rt N (sgn s * i)) (hu : u < m) (F : Nat → ℂ) (j : Nat) (hj : j < p) (d : ℂ) :
    (bodyGeneric tw N fs m p u F).getD j d = goal s N fs p m u F j := by
  have hfs : 0 < fs := Nat.pos_of_ne_zero fun h => by rw [← hN, h] at hN0; simp at hN0
  have hk : fs * (u + j * m) < N := by
    rw [← hN]
    apply Nat.mul_lt_mul_of_pos_left _ hfs
    calc u + j * m < m + j * m := by omega
      _ = (j + 1) * m := by ring
      _ ≤ p * m := Nat.mul_le_mul_right _ hj
  have hl : (bodyGeneric tw N fs m p u F).getD j d =
      genericSum tw N fs (u + j * m) (fun q1 => F (u + q1 * m)) (p - 1) 1 0 (F (u + 0 * m)) := by
    simp [bodyGeneric, List.getD, hj]
  rw [hl, genericSum_eq _ _ _ _ _ hk _ _ _ hN0, goal]
  obtain ⟨p, rfl⟩ : ∃ p', p = p' + 1 := ⟨p - 1, by omega⟩
  rw [Nat.add_sub_cancel, Finset.sum_range_succ' _ p, add_comm]
  congr 1
  · apply Finset.sum_congr rfl
    intro i _
    rw [htw _ (Nat.mod_lt _ hN0), show 1 + i = i + 1 by ring]
    congr 1
    apply rt_congr N hN0
    rw [zero_add, ← mul_sub]
    apply Dvd.dvd.mul_left
    rw [Int.natCast_mod]
    have h2 : ((((i + 1) * (fs * (u + j * m)) : ℕ)) : ℤ) = (fs : ℤ) * ((i + 1 : ℕ) : ℤ) * ((u : ℤ) + j * m) := by
      push_cast; ring
    rw [← h2]
    exact dvd_sub_comm.mp Int.dvd_self_sub_emod
  · simp [rt_zero]

theorem body_spec {s : Bool} {N fs p m u : Nat} {tw : Nat → ℂ} (hN : fs * (p * m) = N) (hN0 : 0 < N)
    (htw : ∀ i < N, tw i = rt N (sgn s * i)) (hu : u < m) (F : Nat → ℂ) (j : Nat) (hj : j < p) (d : ℂ) :
    (body tw s N fs p m u F).getD j d = goal s N fs p m u F j := by
  rw [body]
  split_ifs with h2 h3 h4 h5
  · subst h2; exact body2_spec hN hN0 htw hu F j hj d
  · subst h3; exact body3_spec hN hN0 htw hu F j hj d
  · subst h4; exact body4_spec hN hN0 htw hu F j hj d
  · subst h5; exact body5_spec hN hN0 htw hu F j hj d
  · exact bodyGeneric_spec hN hN0 htw hu F j hj d

/-- The loop of a butterfly. -/
theorem butterfly_eq {s : Bool} {N fs p m : Nat} {tw : Nat → ℂ} (hN : fs * (p * m) = N) (hN0 : 0 < N)
    (htw : ∀ i < N, tw i = rt N (sgn s * i)) (F : Nat → ℂ) (k : Nat) (hk : k < p * m) :
    butterfly tw s N fs p m F k = ∑ q ∈ range p, F (k % m + q * m) * rt N (sgn s * (fs * q * k)) := by
  have hm : 0 < m := Nat.pos_of_ne_zero fun h => by rw [h] at hk; simp at hk
  have inv : ∀ t ≤ m, ∀ k < p * m,
      (List.range t).foldl (fun F u => put F m u (body tw s N fs p m u F)) F k =
        if k % m < t then goal s N fs p m (k % m) F (k / m) else F k := by
    intro t
    induction t with
    | zero => intro _ k _; simp
    | succ t ih =>
      intro ht k hk
      have ih := ih (by omega)
      rw [List.range_succ, List.foldl_append, List.foldl_cons, List.foldl_nil]
      generalize hG : (List.range t).foldl (fun F u => put F m u (body tw s N fs p m u F)) F = G at ih
      have hj : k / m < p := Nat.div_lt_of_lt_mul (by rwa [mul_comm] at hk)
      have hgoal : ∀ j, goal s N fs p m t G j = goal s N fs p m t F j := by
        intro j
        apply Finset.sum_congr rfl
        intro q hq
        have hq := Finset.mem_range.mp hq
        have hl : t + q * m < p * m := by
          calc t + q * m < m + q * m := by omega
            _ = (q + 1) * m := by ring
            _ ≤ p * m := Nat.mul_le_mul_right _ hq
        have hmod : (t + q * m) % m = t := by rw [Nat.add_mul_mod_self_right, Nat.mod_eq_of_lt (by omega)]
        rw [ih _ hl, hmod, if_neg (by omega)]
      rw [put]
      by_cases h : k % m = t
      · rw [if_pos h, body_spec hN hN0 htw (by omega) G _ hj, hgoal, if_pos (by omega), h]
      · rw [if_neg h, ih k hk]
        by_cases h2 : k % m < t
        · rw [if_pos h2, if_pos (by omega)]
        · rw [if_neg h2, if_neg (by omega)]
  rw [butterfly, inv m le_rfl k hk, if_pos (Nat.mod_lt _ hm), goal]
  apply Finset.sum_congr rfl
  intro q _
  congr 4
  have := Nat.mod_add_div k m
  rw [mul_comm] at this
  exact_mod_cast this

/-- Sums over `p * m` terms, in groups of `p`. -/
theorem sum_groups (g : Nat → ℂ) (p m : Nat) : ∑ q ∈ range p, ∑ i ∈ range m, g (q + i * p) = ∑ l ∈ range (p * m), g l := by
  rw [Finset.sum_comm]
  induction m with
  | zero => simp
  | succ m ih =>
    rw [Finset.sum_range_succ, ih, Nat.mul_succ, Finset.sum_range_add]
    congr 1
    apply Finset.sum_congr rfl
    intro q _
    congr 1
    ring

/-- The recursion computes the transform of each `fs`-th input. -/
theorem work_eq {s : Bool} {N : Nat} {tw : Nat → ℂ} (hN0 : 0 < N) (htw : ∀ i < N, tw i = rt N (sgn s * i))
    (factors : List (Nat × Nat)) (n fs : Nat) (hv : Valid n factors) (hN : fs * n = N) (f : Nat → ℂ) (k : Nat) (hk : k < n) :
    work tw s N factors fs f k = ∑ i ∈ range n, f (i * fs) * rt N (sgn s * (fs * i * k)) := by
  induction factors generalizing n fs f k with
  | nil => exact hv.elim
  | cons a rest ih =>
    obtain ⟨p, m⟩ := a
    obtain ⟨hpm, hm, hrest⟩ := hv
    subst hpm
    rw [work, butterfly_eq hN hN0 htw _ _ hk]
    by_cases h1 : m = 1
    · subst h1
      rw [if_pos rfl, Nat.mul_one]
      apply Finset.sum_congr rfl
      intro q _
      rw [Nat.mod_one, Nat.zero_add, Nat.mul_one]
    · rw [if_neg h1]
      have hv' := hrest h1
      have e : ∀ q ∈ range p, work tw s N rest (fs * p) (fun j => f ((k % m + q * m) / m * fs + j)) ((k % m + q * m) % m) *
          rt N (sgn s * (fs * q * k)) =
          ∑ i ∈ range m, f ((q + i * p) * fs) * rt N (sgn s * (fs * ((q + i * p : ℕ) : ℤ) * k)) := by
        intro q _
        have hmod : (k % m + q * m) % m = k % m := by rw [Nat.add_mul_mod_self_right, Nat.mod_mod]
        have hdiv : (k % m + q * m) / m = q := by
          rw [Nat.add_mul_div_right _ _ hm, Nat.div_eq_of_lt (Nat.mod_lt _ hm), Nat.zero_add]
        rw [hmod, hdiv, ih m (fs * p) hv' (by rw [← hN]; ring) _ _ (Nat.mod_lt _ hm), Finset.sum_mul]
        apply Finset.sum_congr rfl
        intro i _
        rw [mul_assoc, ← rt_add, show q * fs + i * (fs * p) = (q + i * p) * fs by ring]
        congr 1
        apply rt_congr N hN0
        have hk2 : (k : ℤ) = (k % m : ℕ) + m * (k / m : ℕ) := by exact_mod_cast (Nat.mod_add_div k m).symm
        refine ⟨-(sgn s * i * ((k / m : ℕ) : ℤ)), ?_⟩
        rw [← hN]
        push_cast at hk2 ⊢
        generalize (k : ℤ) % m = a at *
        generalize (k : ℤ) / m = b at *
        rw [hk2]
        ring
      rw [Finset.sum_congr rfl e, sum_groups (fun l => f (l * fs) * rt N (sgn s * (fs * (l : ℤ) * k))) p m]

/-- The complex transform. -/
theorem fft_eq {s : Bool} {N : Nat} {tw : Nat → ℂ} (hN0 : 0 < N) (htw : ∀ i < N, tw i = rt N (sgn s * i)) (f : Nat → ℂ) (k : Nat)
    (hk : k < N) : fft tw s N f k = ∑ i ∈ range N, f i * rt N (sgn s * (i * k)) := by
  rw [fft, work_eq hN0 htw _ N 1 (factor_valid N hN0) (by simp) f k hk]
  apply Finset.sum_congr rfl
  intro i _
  simp

end Visr.KissFft
