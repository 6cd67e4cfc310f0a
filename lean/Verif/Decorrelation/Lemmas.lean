import Verif.Decorrelation.Model
import Verif.Decorrelation.Spec
import Mathlib.Algebra.Field.GeomSum
import Mathlib.Analysis.SpecialFunctions.Complex.Log

/-!
# Lemmas about the random-phase filters
-/

namespace Visr.Decorrelation
open Visr Visr.Convolver Finset ComplexConjugate

/-- The complex roots of unity. -/
noncomputable def rt (N : Nat) (t : ℤ) : ℂ := Complex.exp (((2 * Real.pi * t / N : ℝ) : ℂ) * Complex.I)

theorem rt_add (N : Nat) (s t : ℤ) : rt N (s + t) = rt N s * rt N t := by
  rw [rt, rt, rt, ← Complex.exp_add]
  congr 1
  push_cast
  ring

theorem rt_zero (N : Nat) : rt N 0 = 1 := by simp [rt]

theorem rt_mul_nat (N : Nat) (t : ℤ) (n : Nat) : rt N (t * n) = rt N t ^ n := by
  rw [rt, rt, ← Complex.exp_nat_mul]
  congr 1
  push_cast
  ring

theorem conj_rt (N : Nat) (t : ℤ) : conj (rt N t) = rt N (-t) := by
  rw [rt, rt, ← Complex.exp_conj]
  congr 1
  rw [map_mul, Complex.conj_I, Complex.conj_ofReal]
  push_cast
  ring

theorem rt_eq_one (N : Nat) (hN : 0 < N) (t : ℤ) : rt N t = 1 ↔ (N : ℤ) ∣ t := by
  have hN' : (N : ℝ) ≠ 0 := by positivity
  have hN'' : (N : ℂ) ≠ 0 := by exact_mod_cast hN'
  have hpi : (Real.pi : ℂ) ≠ 0 := by exact_mod_cast Real.pi_ne_zero
  rw [rt, Complex.exp_eq_one_iff]
  constructor
  · rintro ⟨n, hn⟩
    refine ⟨n, ?_⟩
    push_cast at hn
    have h2 : (2 * (Real.pi : ℂ) * Complex.I) * (t : ℂ) = (2 * (Real.pi : ℂ) * Complex.I) * (N * n : ℂ) := by
      field_simp at hn
      linear_combination (2 * (Real.pi : ℂ) * Complex.I) * hn
    have h3 := mul_left_cancel₀ (by simp [hpi]) h2
    exact_mod_cast h3
  · rintro ⟨m, rfl⟩
    refine ⟨m, ?_⟩
    push_cast
    field_simp

theorem rt_N (N : Nat) (hN : 0 < N) (t : ℤ) : rt N (N * t) = 1 := (rt_eq_one N hN _).mpr ⟨t, rfl⟩

theorem sum_rt (N : Nat) (hN : 0 < N) (t : ℤ) : ∑ n ∈ range N, rt N (t * n) = if (N : ℤ) ∣ t then (N : ℂ) else 0 := by
  simp only [rt_mul_nat]
  split_ifs with h
  · rw [(rt_eq_one N hN t).mpr h]; simp
  · have h1 : rt N t ≠ 1 := fun h' => h ((rt_eq_one N hN t).mp h')
    have := geom_sum_eq h1 N
    rw [this, ← rt_mul_nat, mul_comm, rt_N N hN t]
    simp

/-- The bins of a real sequence, continued beyond half of the transform length. -/
noncomputable def full (L : Nat) (X : Nat → ℂ) (m : Nat) : ℂ := if m ≤ L then X m else conj (X (2 * L - m))

/-- The inverse transform as a sum over all bins. -/
theorem inv_full (L : Nat) (hL : 0 < L) (X : Nat → ℂ) (h0 : X 0 = 1) (h1 : X L = 1) (n : Nat) :
    ((dft L).inv X n : ℂ) = ∑ m ∈ range (2 * L), full L X m * rt (2 * L) (m * n) := by
  have hL' : (L : ℝ) ≠ 0 := by positivity
  rw [Finset.range_eq_Ico, ← Finset.sum_Ico_consecutive _ (Nat.zero_le L) (by omega : L ≤ 2 * L),
    Finset.sum_eq_sum_Ico_succ_bot hL, Finset.sum_eq_sum_Ico_succ_bot (by omega : L < 2 * L)]
  have e2 : ∑ m ∈ Ico (L + 1) (2 * L), full L X m * rt (2 * L) (m * n) =
      ∑ m ∈ Ico 1 L, conj (X m * rt (2 * L) (m * n)) := by
    have hr := Finset.sum_Ico_reflect (fun m : ℕ => full L X m * rt (2 * L) (m * n)) 1
      (show L ≤ 2 * L + 1 by omega)
    rw [show 2 * L + 1 - L = L + 1 by omega, show 2 * L + 1 - 1 = 2 * L by omega] at hr
    rw [← hr]
    apply Finset.sum_congr rfl
    intro k hk
    obtain ⟨hk1, hk2⟩ := Finset.mem_Ico.mp hk
    rw [full, if_neg (by omega), show 2 * L - (2 * L - k) = k by omega, map_mul, conj_rt]
    congr 1
    rw [Nat.cast_sub (by omega : k ≤ 2 * L), sub_mul, sub_eq_add_neg, rt_add, rt_N _ (by omega), one_mul]
  have e1 : rt (2 * L) ((L : ℤ) * n) = (-1) ^ n := by
    rw [rt_mul_nat, rt]
    congr 1
    have : (2 * Real.pi * ((L : ℤ) : ℝ) / ((2 * L : ℕ) : ℝ) : ℝ) = Real.pi := by
      push_cast; field_simp
    rw [this, Complex.exp_pi_mul_I]
  have e3 : ∑ m ∈ Ico 1 L, full L X m * rt (2 * L) (m * n) = ∑ m ∈ Ico 1 L, X m * rt (2 * L) (m * n) := by
    apply Finset.sum_congr rfl
    intro k hk
    rw [full, if_pos (by have := (Finset.mem_Ico.mp hk).2; omega)]
  rw [e2, zero_add, e3]
  have f0 : full L X 0 = 1 := by simp [full, h0]
  have fL : full L X L = 1 := by simp [full, h1]
  rw [f0, fL, e1]
  have hz : rt (2 * L) (((0 : ℕ) : ℤ) * n) = 1 := by simp [rt_zero]
  rw [hz]
  have hs : ∑ m ∈ Ico 1 L, X m * rt (2 * L) (m * n) + ∑ m ∈ Ico 1 L, conj (X m * rt (2 * L) (m * n)) =
      ((2 * ∑ k ∈ Ico 1 L, (X k * Complex.exp (((2 * Real.pi * k * n / (2 * L) : ℝ) : ℂ) * Complex.I)).re : ℝ) : ℂ) := by
    rw [← Finset.sum_add_distrib]
    push_cast
    rw [Finset.mul_sum]
    apply Finset.sum_congr rfl
    intro k _
    rw [Complex.add_conj]
    push_cast
    congr 4
    rw [rt]
    congr 2
    push_cast
    ring
  have : (dft L).inv X n = 1 * ((X 0).re + (-1) ^ n * (X L).re +
    2 * ∑ k ∈ Ico 1 L, (X k * Complex.exp (((2 * Real.pi * k * n / (2 * L) : ℝ) : ℂ) * Complex.I)).re) := rfl
  rw [this, h0, h1, Complex.one_re]
  push_cast at hs ⊢
  linear_combination -hs

/-- The forward transform of the inverse transform. -/
theorem fwd_inv (L : Nat) (hL : 0 < L) (X : Nat → ℂ) (h0 : X 0 = 1) (h1 : X L = 1) (k : Nat) (hk : k < 2 * L) :
    ∑ n ∈ range (2 * L), ((dft L).inv X n : ℂ) * rt (2 * L) (-(k * n)) = (2 * L : Nat) * full L X k := by
  simp only [inv_full L hL X h0 h1, Finset.sum_mul]
  rw [Finset.sum_comm]
  have : ∀ m ∈ range (2 * L), ∑ n ∈ range (2 * L), full L X m * rt (2 * L) (m * n) * rt (2 * L) (-(k * n)) =
      if m = k then ((2 * L : Nat) : ℂ) * full L X k else 0 := by
    intro m hm
    have hm := Finset.mem_range.mp hm
    have e : ∀ n ∈ range (2 * L), full L X m * rt (2 * L) (m * n) * rt (2 * L) (-(k * n)) =
        full L X m * rt (2 * L) (((m : ℤ) - k) * n) := by
      intro n _
      rw [mul_assoc, ← rt_add]
      congr 2
      ring
    rw [Finset.sum_congr rfl e, ← Finset.mul_sum, sum_rt _ (by omega)]
    by_cases h : m = k
    · subst h; simp; ring
    · rw [if_neg h, if_neg, mul_zero]
      rintro ⟨c, hc⟩
      rcases lt_trichotomy c 0 with h' | h' | h'
      · have := mul_le_mul_of_nonneg_left (show c ≤ -1 by omega) (show (0 : ℤ) ≤ ((2 * L : ℕ) : ℤ) by positivity)
        omega
      · subst h'; omega
      · have := mul_le_mul_of_nonneg_left (show 1 ≤ c by omega) (show (0 : ℤ) ≤ ((2 * L : ℕ) : ℤ) by positivity)
        omega
  rw [Finset.sum_congr rfl this, Finset.sum_ite_eq' , if_pos (Finset.mem_range.mpr hk)]

/-- Parseval's theorem for the inverse transform. -/
theorem inv_energy (L : Nat) (hL : 0 < L) (X : Nat → ℂ) (h0 : X 0 = 1) (h1 : X L = 1) (hX : ∀ k ≤ L, ‖X k‖ = 1) :
    ∑ n ∈ range (2 * L), ((dft L).inv X n) ^ 2 = ((2 * L : Nat) : ℝ) ^ 2 := by
  have hc : ((∑ n ∈ range (2 * L), ((dft L).inv X n) ^ 2 : ℝ) : ℂ) = ((((2 * L : Nat) : ℝ) ^ 2 : ℝ) : ℂ) := by
    push_cast
    have e : ∀ n ∈ range (2 * L), ((dft L).inv X n : ℂ) ^ 2 =
        ∑ m ∈ range (2 * L), conj (full L X m) * (((dft L).inv X n : ℂ) * rt (2 * L) (-(m * n))) := by
      intro n _
      have key : ((dft L).inv X n : ℂ) = ∑ m ∈ range (2 * L), conj (full L X m) * rt (2 * L) (-(m * n)) := by
        rw [← Complex.conj_ofReal, inv_full L hL X h0 h1, map_sum]
        apply Finset.sum_congr rfl
        intro m _
        rw [map_mul, conj_rt]
      have : ((dft L).inv X n : ℂ) ^ 2 = (∑ m ∈ range (2 * L), conj (full L X m) * rt (2 * L) (-(m * n))) * (dft L).inv X n := by
        rw [← key, sq]
      rw [this, Finset.sum_mul]
      apply Finset.sum_congr rfl
      intro m _
      ring
    rw [Finset.sum_congr rfl e, Finset.sum_comm]
    have e2 : ∀ m ∈ range (2 * L), ∑ n ∈ range (2 * L),
        conj (full L X m) * (((dft L).inv X n : ℂ) * rt (2 * L) (-(m * n))) = ((2 * L : Nat) : ℂ) := by
      intro m hm
      rw [← Finset.mul_sum, fwd_inv L hL X h0 h1 m (Finset.mem_range.mp hm)]
      have hn : ‖full L X m‖ = 1 := by
        rw [full]
        split_ifs with h
        · exact hX m h
        · rw [Complex.norm_conj]; exact hX _ (by omega)
      have hh : conj (full L X m) * full L X m = 1 := by
        rw [← Complex.normSq_eq_conj_mul_self, Complex.normSq_eq_norm_sq, hn]; norm_num
      linear_combination ((2 * L : Nat) : ℂ) * hh
    rw [Finset.sum_congr rfl e2]
    simp
    ring
  exact_mod_cast hc

theorem polar (t : ℝ) : (⟨Real.cos t, Real.sin t⟩ : ℂ) = Complex.exp ((t : ℂ) * Complex.I) := by
  apply Complex.ext
  · rw [Complex.exp_ofReal_mul_I_re]
  · rw [Complex.exp_ofReal_mul_I_im]

/-- The generated bins. -/
theorem freqResponse_norm (len : Nat) (draw : Nat → ℝ) (pos k : Nat) : ‖freqResponse len draw pos k‖ = 1 := by
  rw [freqResponse]
  split_ifs
  · simp
  · simp
  · rw [polar, Complex.norm_exp_ofReal_mul_I]

theorem freqResponse_zero (len : Nat) (draw : Nat → ℝ) (pos : Nat) : freqResponse len draw pos 0 = 1 := by simp [freqResponse]

theorem freqResponse_last (len : Nat) (draw : Nat → ℝ) (pos : Nat) : freqResponse len draw pos (len / 2) = 1 := by
  simp [freqResponse]

theorem full_norm {L : Nat} {X : Nat → ℂ} (hX : ∀ k ≤ L, ‖X k‖ = 1) (m : Nat) : ‖full L X m‖ = 1 := by
  rw [full]
  split_ifs with h
  · exact hX m h
  · rw [Complex.norm_conj]; exact hX _ (by omega)

/-- The coefficients of a generated filter. -/
theorem filterRow_getD {fft : Fft ℝ ℂ} {len : Nat} {s : ℝ} {draw : Nat → ℝ} {pos n : Nat} (h : n < len) :
    (filterRow fft len s draw pos).getD n 0 = s * fft.inv (freqResponse len draw pos) n := by
  simp [filterRow, List.getD, h]

theorem filterRow_length {fft : Fft ℝ ℂ} {len : Nat} {s : ℝ} {draw : Nat → ℝ} {pos : Nat} :
    (filterRow fft len s draw pos).length = len := by simp [filterRow]

/-- The frequency response of a generated filter on the grid. -/
theorem response_row (L : Nat) (hL : 0 < L) (g : ℝ) (draw : Nat → ℝ) (pos k : Nat) (hk : k < 2 * L) :
    response (filterRow (dft L) (2 * L) (g / (((2 * L : Nat) : ℝ) * (dft L).is)) draw pos) (2 * Real.pi * k / (2 * L : Nat)) =
      g * full L (freqResponse (2 * L) draw pos) k := by
  have hN : (((2 * L : Nat) : ℝ) : ℂ) ≠ 0 := by
    have : ((2 * L : Nat) : ℝ) ≠ 0 := by positivity
    exact_mod_cast this
  have h0 := freqResponse_zero (2 * L) draw pos
  have h1 := freqResponse_last (2 * L) draw pos
  rw [show 2 * L / 2 = L by omega] at h1
  have key := fwd_inv L hL _ h0 h1 k hk
  rw [response, filterRow_length]
  have e : ∀ n ∈ range (2 * L), ((filterRow (dft L) (2 * L) (g / (((2 * L : Nat) : ℝ) * (dft L).is)) draw pos).getD n 0 : ℂ) *
      Complex.exp (-((2 * Real.pi * k / (2 * L : Nat) * n : ℝ) : ℂ) * Complex.I) =
      (g / ((2 * L : Nat) : ℝ) : ℂ) * (((dft L).inv (freqResponse (2 * L) draw pos) n : ℂ) * rt (2 * L) (-(k * n))) := by
    intro n hn
    rw [filterRow_getD (Finset.mem_range.mp hn)]
    have : rt (2 * L) (-(k * n)) = Complex.exp (-((2 * Real.pi * k / (2 * L : Nat) * n : ℝ) : ℂ) * Complex.I) := by
      rw [rt]
      congr 2
      push_cast
      ring
    rw [this, show (dft L).is = 1 from rfl, mul_one]
    push_cast
    ring
  rw [Finset.sum_congr rfl e, ← Finset.mul_sum, key]
  push_cast at hN ⊢
  have hL' : (L : ℂ) ≠ 0 := fun h => hN (by rw [h, mul_zero])
  field_simp

theorem list_sum_range (f : Nat → ℝ) (n : Nat) : ((List.range n).map f).sum = ∑ i ∈ range n, f i := by
  induction n with
  | zero => simp
  | succ n ih => rw [List.range_succ, List.map_append, List.sum_append, ih, Finset.sum_range_succ]; simp

/-- The energy of a generated filter. -/
theorem energy_row (L : Nat) (hL : 0 < L) (g : ℝ) (draw : Nat → ℝ) (pos : Nat) :
    energy (filterRow (dft L) (2 * L) (g / (((2 * L : Nat) : ℝ) * (dft L).is)) draw pos) = g ^ 2 := by
  have hN : ((2 * L : Nat) : ℝ) ≠ 0 := by positivity
  have h0 := freqResponse_zero (2 * L) draw pos
  have h1 := freqResponse_last (2 * L) draw pos
  rw [show 2 * L / 2 = L by omega] at h1
  have key := inv_energy L hL _ h0 h1 (fun k _ => freqResponse_norm (2 * L) draw pos k)
  rw [energy, filterRow, List.map_map, list_sum_range]
  simp only [Function.comp, show (dft L).is = 1 from rfl, mul_one, mul_pow]
  rw [← Finset.mul_sum, key]
  field_simp

/-- The filters of the loop. -/
theorem rowsFrom_length (fft : Fft ℝ ℂ) (len : Nat) (s : ℝ) (draw : Nat → ℝ) (n pos : Nat) :
    (rowsFrom fft len s draw n pos).length = n := by
  induction n generalizing pos with
  | zero => rfl
  | succ n ih => simp [rowsFrom, ih]

theorem rowsFrom_get (fft : Fft ℝ ℂ) (len : Nat) (s : ℝ) (draw : Nat → ℝ) (n pos i : Nat) (h : i < n) :
    (rowsFrom fft len s draw n pos)[i]? = some (filterRow fft len s draw (pos + i * (len / 2 - 1))) := by
  induction n generalizing pos i with
  | zero => omega
  | succ n ih =>
    cases i with
    | zero => simp [rowsFrom]
    | succ i =>
      rw [rowsFrom, List.getElem?_cons_succ, ih _ _ (by omega)]
      congr 2
      ring

end Visr.Decorrelation
