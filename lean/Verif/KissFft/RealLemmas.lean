import Verif.KissFft.Lemmas

/-!
# Lemmas: the real transforms
-/

namespace Visr.KissFft
open Visr Finset ComplexConjugate
open Visr.Decorrelation (rt rt_add rt_zero rt_mul_nat conj_rt rt_eq_one rt_N)

theorem rt_double (L : Nat) (t : ℤ) : rt (2 * L) (2 * t) = rt L t := by
  have := rt_scale L 2 (by norm_num) t
  rw [← this]
  congr 1
  · ring
  · push_cast; ring

theorem rt_half (L : Nat) (hL : 0 < L) : rt (2 * L) L = -1 := by
  have := rt_scale 2 L hL 1
  rw [one_mul] at this
  rw [this]
  exact rt_two true

theorem superTwiddle_false (L k : Nat) (hL : 0 < L) (hk : 0 < k) :
    superTwiddle L false (k - 1) = -Complex.I * rt (2 * L) (-k) := by
  have hL' : (L : ℝ) ≠ 0 := by positivity
  have hI : -Complex.I = Complex.exp (((-(Real.pi / 2) : ℝ) : ℂ) * Complex.I) := by
    rw [← cexp_eq, cexp]; apply Complex.ext <;> simp
  rw [superTwiddle, cexp_eq, hI, rt, ← Complex.exp_add]
  congr 1
  obtain ⟨j, rfl⟩ : ∃ j, k = j + 1 := ⟨k - 1, by omega⟩
  have hL'' : (L : ℂ) ≠ 0 := by exact_mod_cast hL'
  simp only [Bool.false_eq_true, if_false, Nat.add_sub_cancel]
  push_cast
  field_simp
  ring

theorem superTwiddle_true (L k : Nat) (hL : 0 < L) (hk : 0 < k) :
    superTwiddle L true (k - 1) = Complex.I * rt (2 * L) k := by
  have hL' : (L : ℝ) ≠ 0 := by positivity
  have hI : Complex.I = Complex.exp (((Real.pi / 2 : ℝ) : ℂ) * Complex.I) := by
    rw [← cexp_eq, cexp]; apply Complex.ext <;> simp
  rw [superTwiddle, cexp_eq]
  conv_rhs => rw [hI]
  rw [rt, ← Complex.exp_add]
  obtain ⟨j, rfl⟩ : ∃ j, k = j + 1 := ⟨k - 1, by omega⟩
  have hL'' : (L : ℂ) ≠ 0 := by exact_mod_cast hL'
  simp only [if_true, Nat.add_sub_cancel]
  congr 1
  push_cast
  field_simp
  ring

/-- The transform of the samples with even and with odd numbers. -/
noncomputable def part (L : Nat) (x : Nat → ℝ) (c : Nat) (k : ℤ) : ℂ := ∑ n ∈ range L, (x (2 * n + c) : ℂ) * rt L (-(n * k))

/-- The transform of a real sequence of length `2 L`. -/
noncomputable def bins (L : Nat) (x : Nat → ℝ) (k : ℤ) : ℂ := ∑ n ∈ range (2 * L), (x n : ℂ) * rt (2 * L) (-(n * k))

theorem bins_split (L : Nat) (x : Nat → ℝ) (k : ℤ) : bins L x k = part L x 0 k + rt (2 * L) (-k) * part L x 1 k := by
  rw [bins, ← sum_groups (fun n => (x n : ℂ) * rt (2 * L) (-(n * k))) 2 L, Finset.sum_range_succ, Finset.sum_range_one, part, part,
    Finset.mul_sum]
  congr 1
  · apply Finset.sum_congr rfl
    intro n _
    rw [show 0 + n * 2 = 2 * n + 0 by ring, ← rt_double L]
    congr 2
    push_cast
    ring
  · apply Finset.sum_congr rfl
    intro n _
    rw [show 1 + n * 2 = 2 * n + 1 by ring, ← rt_double L, mul_left_comm, ← rt_add]
    congr 2
    push_cast
    ring

theorem conj_part (L : Nat) (hL : 0 < L) (x : Nat → ℝ) (c : Nat) (k : ℤ) : part L x c (L - k) = conj (part L x c k) := by
  rw [part, part, map_sum]
  apply Finset.sum_congr rfl
  intro n _
  rw [map_mul, Complex.conj_ofReal, conj_rt]
  congr 1
  apply rt_congr L hL
  exact ⟨-n, by ring⟩

section forward
variable {L : Nat} {tw stw : Nat → ℂ} (hL : 0 < L) (htw : ∀ i < L, tw i = twiddle L false i)
include hL htw

theorem tmp_eq (x : Nat → ℝ) (k : Nat) (hk : k < L) :
    fft tw false L (fun n => ⟨x (2 * n), x (2 * n + 1)⟩) k = part L x 0 k + Complex.I * part L x 1 k := by
  rw [fft_eq hL (s := false) (fun i hi => by rw [htw i hi, twiddle_eq]) _ k hk, part, part, Finset.mul_sum,
    ← Finset.sum_add_distrib]
  apply Finset.sum_congr rfl
  intro n _
  have : (⟨x (2 * n), x (2 * n + 1)⟩ : ℂ) = x (2 * n) + Complex.I * x (2 * n + 1) := by
    apply Complex.ext <;> simp
  rw [this, Nat.add_zero, show sgn false * ((n : ℤ) * k) = -(n * k) by simp [sgn]]
  ring

theorem step_values (hstw : ∀ i < L / 2, stw i = superTwiddle L false i) (x : Nat → ℝ) (tmp : Nat → ℂ)
    (ht : tmp = fft tw false L (fun n => ⟨x (2 * n), x (2 * n + 1)⟩)) (freq : Nat → ℂ) (k : Nat) (hk : 0 < k) (hk2 : k ≤ L / 2) :
    fftrStep stw L tmp freq k = Function.update (Function.update freq k (bins L x k)) (L - k) (bins L x ((L - k : Nat) : ℤ)) := by
  have hkL : k < L := by omega
  have h1 : tmp k = part L x 0 k + Complex.I * part L x 1 k := by rw [ht]; exact tmp_eq hL htw x k hkL
  have h2 : (⟨(tmp (L - k)).re, -(tmp (L - k)).im⟩ : ℂ) = part L x 0 k - Complex.I * part L x 1 k := by
    have : tmp (L - k) = conj (part L x 0 k) + Complex.I * conj (part L x 1 k) := by
      rw [ht, tmp_eq hL htw x (L - k) (by omega), Nat.cast_sub hkL.le, conj_part L hL, conj_part L hL]
    rw [show (⟨(tmp (L - k)).re, -(tmp (L - k)).im⟩ : ℂ) = conj (tmp (L - k)) from rfl, this, map_add, map_mul, Complex.conj_conj,
      Complex.conj_conj, Complex.conj_I]
    ring
  have hs : stw (k - 1) = -Complex.I * rt (2 * L) (-k) := by rw [hstw _ (by omega), superTwiddle_false L k hL hk]
  have hI : Complex.I * Complex.I = -1 := Complex.I_mul_I
  have v1 : (part L x 0 k + Complex.I * part L x 1 k) + (part L x 0 k - Complex.I * part L x 1 k) = 2 * part L x 0 k := by ring
  have v2 : ((part L x 0 k + Complex.I * part L x 1 k) - (part L x 0 k - Complex.I * part L x 1 k)) *
      (-Complex.I * rt (2 * L) (-k)) = 2 * (rt (2 * L) (-k) * part L x 1 k) := by
    linear_combination (-2 * rt (2 * L) (-k) * part L x 1 k) * hI
  have hb : bins L x ((L - k : Nat) : ℤ) = conj (part L x 0 k - rt (2 * L) (-k) * part L x 1 k) := by
    rw [bins_split, Nat.cast_sub hkL.le, conj_part L hL, conj_part L hL, map_sub, map_mul, conj_rt, neg_neg,
      show -((L : ℤ) - k) = k + (-(L : ℤ)) by ring, rt_add,
      show rt (2 * L) (-(L : ℤ)) = -1 by
        rw [← conj_rt, rt_half L hL]; simp]
    ring
  rw [fftrStep]
  simp only [h1, h2, hs, v1, v2]
  rw [hb, bins_split]
  congr 1
  · congr 1
    apply Complex.ext <;> simp <;> ring
  · apply Complex.ext <;> simp <;> ring

theorem fftr_eq (hstw : ∀ i < L / 2, stw i = superTwiddle L false i) (x : Nat → ℝ) (freq : Nat → ℂ) (k : Nat) (hk : k ≤ L) :
    fftr tw stw L x freq k = bins L x k := by
  rw [fftr]
  generalize ht : fft tw false L (fun n => ⟨x (2 * n), x (2 * n + 1)⟩) = tmp
  have h0 : tmp 0 = part L x 0 0 + Complex.I * part L x 1 0 := by
    rw [← ht]; simpa using tmp_eq hL htw x 0 hL
  have hre : ∀ c, (part L x c 0).im = 0 := by
    intro c
    rw [part, Complex.im_sum]
    apply Finset.sum_eq_zero
    intro n _
    simp [rt_zero]
  have hb0 : (⟨(tmp 0).re + (tmp 0).im, 0⟩ : ℂ) = bins L x 0 := by
    rw [bins_split, h0]
    apply Complex.ext <;> simp [rt_zero, hre]
  have hbL : (⟨(tmp 0).re - (tmp 0).im, 0⟩ : ℂ) = bins L x L := by
    have e : ∀ c, part L x c L = part L x c 0 := by
      intro c
      have := conj_part L hL x c 0
      rw [sub_zero] at this
      rw [this]
      apply Complex.ext <;> simp [hre]
    rw [bins_split, h0, e, e, show rt (2 * L) (-(L : ℤ)) = -1 by rw [← conj_rt, rt_half L hL]; simp]
    apply Complex.ext <;> simp [hre] <;> ring
  rw [hb0, hbL]
  generalize hf : Function.update (Function.update freq 0 (bins L x 0)) L (bins L x L) = f0
  have inv : ∀ t ≤ L / 2, ∀ j, (List.range t).foldl (fun freq k => fftrStep stw L tmp freq (k + 1)) f0 j =
      if (1 ≤ j ∧ j ≤ t) ∨ (L - t ≤ j ∧ j < L) then bins L x j else f0 j := by
    intro t
    induction t with
    | zero => intro _ j; rw [if_neg (by omega)]; rfl
    | succ t ih =>
      intro h j
      rw [List.range_succ, List.foldl_append, List.foldl_cons, List.foldl_nil,
        step_values hL htw hstw x tmp ht.symm _ (t + 1) (by omega) h]
      by_cases h1 : j = L - (t + 1)
      · subst h1
        rw [Function.update_self, if_pos (by omega)]
      · rw [Function.update_of_ne h1]
        by_cases h2 : j = t + 1
        · subst h2
          rw [Function.update_self, if_pos (by omega)]
        · rw [Function.update_of_ne h2, ih (by omega)]
          by_cases h3 : (1 ≤ j ∧ j ≤ t) ∨ (L - t ≤ j ∧ j < L)
          · rw [if_pos h3, if_pos (by omega)]
          · rw [if_neg h3, if_neg (by omega)]
  rw [inv _ le_rfl k]
  split_ifs with h
  · rfl
  · rw [← hf]
    by_cases hkL : k = L
    · subst hkL; rw [Function.update_self]
    · rw [Function.update_of_ne hkL]
      have : k = 0 := by omega
      subst this
      rw [Function.update_self]
      rfl

end forward

section backward

/-- The bins continued beyond half of the transform length; the imaginary parts of the first and the middle one are ignored. -/
noncomputable def herm (L : Nat) (X : Nat → ℂ) (m : Nat) : ℂ :=
  if m = 0 then ((X 0).re : ℂ) else if m < L then X m else if m = L then ((X L).re : ℂ) else conj (X (2 * L - m))

/-- The inverse transform of real sequences. -/
noncomputable def samples (L : Nat) (X : Nat → ℂ) (n : Nat) : ℝ := (X 0).re + (-1) ^ n * (X L).re +
    2 * ∑ k ∈ Ico 1 L, (X k * Complex.exp (((2 * Real.pi * k * n / (2 * L) : ℝ) : ℂ) * Complex.I)).re

theorem samples_eq (L : Nat) (hL : 0 < L) (X : Nat → ℂ) (n : Nat) :
    (samples L X n : ℂ) = ∑ m ∈ range (2 * L), herm L X m * rt (2 * L) (n * m) := by
  have hL' : (L : ℝ) ≠ 0 := by positivity
  rw [Finset.range_eq_Ico, ← Finset.sum_Ico_consecutive _ (Nat.zero_le L) (by omega : L ≤ 2 * L),
    Finset.sum_eq_sum_Ico_succ_bot hL, Finset.sum_eq_sum_Ico_succ_bot (by omega : L < 2 * L)]
  have e2 : ∑ m ∈ Ico (L + 1) (2 * L), herm L X m * rt (2 * L) (n * m) =
      ∑ m ∈ Ico 1 L, conj (X m * rt (2 * L) (n * m)) := by
    have hr := Finset.sum_Ico_reflect (fun m : ℕ => herm L X m * rt (2 * L) (n * m)) 1
      (show L ≤ 2 * L + 1 by omega)
    rw [show 2 * L + 1 - L = L + 1 by omega, show 2 * L + 1 - 1 = 2 * L by omega] at hr
    rw [← hr]
    apply Finset.sum_congr rfl
    intro k hk
    obtain ⟨hk1, hk2⟩ := Finset.mem_Ico.mp hk
    rw [herm, if_neg (by omega), if_neg (by omega), if_neg (by omega), show 2 * L - (2 * L - k) = k by omega, map_mul, conj_rt]
    congr 1
    apply rt_congr _ (by omega)
    rw [Nat.cast_sub (by omega : k ≤ 2 * L)]
    exact ⟨n, by ring⟩
  have e3 : ∑ m ∈ Ico 1 L, herm L X m * rt (2 * L) (n * m) = ∑ m ∈ Ico 1 L, X m * rt (2 * L) (n * m) := by
    apply Finset.sum_congr rfl
    intro k hk
    obtain ⟨hk1, hk2⟩ := Finset.mem_Ico.mp hk
    rw [herm, if_neg (by omega), if_pos hk2]
  have e1 : rt (2 * L) ((n : ℤ) * L) = (-1) ^ n := by
    rw [mul_comm (n : ℤ), rt_mul_nat, rt_half L hL]
  rw [e2, zero_add, e3, e1]
  have f0 : herm L X 0 = ((X 0).re : ℂ) := by simp [herm]
  have fL : herm L X L = ((X L).re : ℂ) := by simp [herm, hL.ne']
  have hz : rt (2 * L) ((n : ℤ) * ((0 : ℕ) : ℤ)) = 1 := by simp [rt_zero]
  rw [f0, fL, hz]
  have hs : ∑ m ∈ Ico 1 L, X m * rt (2 * L) (n * m) + ∑ m ∈ Ico 1 L, conj (X m * rt (2 * L) (n * m)) =
      ((2 * ∑ k ∈ Ico 1 L, (X k * Complex.exp (((2 * Real.pi * k * n / (2 * L) : ℝ) : ℂ) * Complex.I)).re : ℝ) : ℂ) := by
    rw [← Finset.sum_add_distrib]
    push_cast
    rw [Finset.mul_sum]
    apply Finset.sum_congr rfl
    intro k _
    rw [Complex.add_conj]
    push_cast
    congr 4
    rw [rt]
    congr 2
    push_cast
    ring
  rw [samples]
  push_cast at hs ⊢
  linear_combination -hs

/-- The packed bins. -/
noncomputable def packed (L : Nat) (X : Nat → ℂ) (k : Nat) : ℂ :=
  (herm L X k + herm L X (k + L)) + Complex.I * rt (2 * L) k * (herm L X k - herm L X (k + L))

variable {L : Nat} {tw stw : Nat → ℂ} (hL : 0 < L)
include hL

theorem istep_values (hstw : ∀ i < L / 2, stw i = superTwiddle L true i) (X tmp : Nat → ℂ) (k : Nat) (hk : 0 < k) (hk2 : k ≤ L / 2) :
    fftriStep stw L X tmp k = Function.update (Function.update tmp k (packed L X k)) (L - k) (packed L X (L - k)) := by
  have hkL : k < L := by omega
  have hs : stw (k - 1) = Complex.I * rt (2 * L) k := by rw [hstw _ (by omega), superTwiddle_true L k hL hk]
  have a1 : herm L X k = X k := by rw [herm, if_neg (by omega), if_pos hkL]
  have a2 : herm L X (k + L) = conj (X (L - k)) := by
    rw [herm, if_neg (by omega), if_neg (by omega), if_neg (by omega), show 2 * L - (k + L) = L - k by omega]
  have b1 : herm L X (L - k) = X (L - k) := by rw [herm, if_neg (by omega), if_pos (by omega)]
  have b2 : herm L X (L - k + L) = conj (X k) := by
    rw [herm, if_neg (by omega), if_neg (by omega), if_neg (by omega), show 2 * L - (L - k + L) = k by omega]
  have hr : rt (2 * L) ((L - k : Nat) : ℤ) = - rt (2 * L) (-k) := by
    rw [Nat.cast_sub hkL.le, sub_eq_add_neg, rt_add, rt_half L hL]; ring
  rw [fftriStep]
  rw [show (⟨(X (L - k)).re, -(X (L - k)).im⟩ : ℂ) = conj (X (L - k)) from rfl, hs, packed, packed, a1, a2, b1, b2, hr]
  congr 1
  · congr 1
    ring
  · have : ∀ d : ℂ, (⟨d.re, d.im * -1⟩ : ℂ) = conj d := by
      intro d; apply Complex.ext <;> simp
    rw [this]
    simp only [map_add, map_sub, map_mul, Complex.conj_conj, Complex.conj_I, conj_rt]
    ring

theorem fftri_eq (htw : ∀ i < L, tw i = twiddle L true i) (hstw : ∀ i < L / 2, stw i = superTwiddle L true i) (X tmp : Nat → ℂ)
    (n : Nat) (hn : n < 2 * L) : fftri tw stw L X tmp n = samples L X n := by
  rw [fftri]
  generalize hf : Function.update tmp 0 (⟨(X 0).re + (X L).re, (X 0).re - (X L).re⟩ : ℂ) = f0
  have inv : ∀ t ≤ L / 2, ∀ j, (List.range t).foldl (fun tmp k => fftriStep stw L X tmp (k + 1)) f0 j =
      if (1 ≤ j ∧ j ≤ t) ∨ (L - t ≤ j ∧ j < L) then packed L X j else f0 j := by
    intro t
    induction t with
    | zero => intro _ j; rw [if_neg (by omega)]; rfl
    | succ t ih =>
      intro h j
      rw [List.range_succ, List.foldl_append, List.foldl_cons, List.foldl_nil,
        istep_values hL hstw X _ (t + 1) (by omega) h]
      by_cases h1 : j = L - (t + 1)
      · subst h1
        rw [Function.update_self, if_pos (by omega)]
      · rw [Function.update_of_ne h1]
        by_cases h2 : j = t + 1
        · subst h2
          rw [Function.update_self, if_pos (by omega)]
        · rw [Function.update_of_ne h2, ih (by omega)]
          by_cases h3 : (1 ≤ j ∧ j ≤ t) ∨ (L - t ≤ j ∧ j < L)
          · rw [if_pos h3, if_pos (by omega)]
          · rw [if_neg h3, if_neg (by omega)]
  have hpk : ∀ j < L, (List.range (L / 2)).foldl (fun tmp k => fftriStep stw L X tmp (k + 1)) f0 j = packed L X j := by
    intro j hj
    rw [inv _ le_rfl j]
    split_ifs with h
    · rfl
    · have : j = 0 := by omega
      subst this
      rw [← hf, Function.update_self, packed]
      have f0 : herm L X 0 = ((X 0).re : ℂ) := by simp [herm]
      have fL : herm L X (0 + L) = ((X L).re : ℂ) := by simp [herm, hL.ne']
      rw [f0, fL, Nat.cast_zero, rt_zero]
      apply Complex.ext <;> simp
  have hz : ∀ i < L, fft tw true L ((List.range (L / 2)).foldl (fun tmp k => fftriStep stw L X tmp (k + 1)) f0) i =
      (samples L X (2 * i) : ℂ) + Complex.I * (samples L X (2 * i + 1) : ℂ) := by
    intro i hi
    rw [fft_eq hL (s := true) (fun i hi => by rw [htw i hi, twiddle_eq]) _ i hi, samples_eq L hL, samples_eq L hL,
      show 2 * L = L + L by ring, Finset.sum_range_add, Finset.sum_range_add, ← Finset.sum_add_distrib, ← Finset.sum_add_distrib,
      Finset.mul_sum, ← Finset.sum_add_distrib]
    apply Finset.sum_congr rfl
    intro k hk
    rw [hpk k (Finset.mem_range.mp hk), packed, ← show 2 * L = L + L by ring]
    have r0 : rt L (sgn true * ((k : ℤ) * i)) = rt (2 * L) (((2 * i : ℕ) : ℤ) * k) := by
      rw [← rt_double]; congr 1; simp [sgn]; ring
    have r1 : rt (2 * L) (((2 * i : ℕ) : ℤ) * ((L + k : ℕ) : ℤ)) = rt (2 * L) (((2 * i : ℕ) : ℤ) * k) := by
      apply rt_congr _ (by omega)
      exact ⟨i, by push_cast; ring⟩
    have r2 : rt (2 * L) (((2 * i + 1 : ℕ) : ℤ) * k) = rt (2 * L) (((2 * i : ℕ) : ℤ) * k) * rt (2 * L) k := by
      rw [← rt_add]; congr 1; push_cast; ring
    have r3 : rt (2 * L) (((2 * i + 1 : ℕ) : ℤ) * ((L + k : ℕ) : ℤ)) = -(rt (2 * L) (((2 * i : ℕ) : ℤ) * k) * rt (2 * L) k) := by
      have : ((2 * i + 1 : ℕ) : ℤ) * ((L + k : ℕ) : ℤ) = ((2 * i : ℕ) : ℤ) * ((L + k : ℕ) : ℤ) + (k + L) := by push_cast; ring
      rw [this, rt_add, r1, rt_add, rt_half L hL]; ring
    rw [r0, r1, r2, r3, Nat.add_comm L k]
    ring
  simp only
  split_ifs with h
  · rw [hz _ (by omega), show 2 * (n / 2) = n by omega]
    simp
  · rw [hz _ (by omega), show 2 * (n / 2) + 1 = n by omega]
    simp

end backward

end Visr.KissFft
