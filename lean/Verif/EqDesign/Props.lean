import Verif.EqDesign.Lemmas

/-!
# C53: equaliser settings yield the filters they name
-/

namespace Visr.EqDesign
open Visr Visr.Biquad Visr.Encode Filter Topology

/-! ### Poles of the designed sections -/

theorem design_poles {fs : ℝ} {p : Section ℝ} (h : Realisable fs p) : ∃ u v, Poles (design p fs) u v := by
  obtain ⟨hT, hcos, hsin⟩ := centre h
  have hc1 : Real.cos (2 * Real.pi * p.f / fs) < 1 := by
    rw [hcos, div_lt_one (by positivity)]; nlinarith
  have hc2 : -1 < Real.cos (2 * Real.pi * p.f / fs) := by
    rw [hcos, lt_div_iff₀ (by positivity)]; nlinarith
  have hs : 0 < Real.sin (2 * Real.pi * p.f / fs) := by rw [hsin]; positivity
  have hq := h.qpos
  have ha : 0 < Real.sin (2 * Real.pi * p.f / fs) / (2 * p.q) := by positivity
  have hA : 0 < Real.sqrt (dB2linear p.gain) := by rw [sqrt_dB]; positivity
  have hr : 0 < Real.sqrt (Real.sqrt (dB2linear p.gain)) := Real.sqrt_pos.2 hA
  have simple : ∀ c α : ℝ, -1 < c → c < 1 → 0 < α →
      |(1 - α) / (1 + α)| < 1 ∧ |(-2 * c) / (1 + α)| < 1 + (1 - α) / (1 + α) := by
    intro c α h1 h2 h3
    have h4 : 0 < 1 + α := by linarith
    have e : 1 + (1 - α) / (1 + α) = 2 / (1 + α) := by field_simp; ring
    rw [e, abs_div, abs_div, abs_of_pos h4, div_lt_one h4, div_lt_div_iff_of_pos_right h4, abs_lt, abs_lt]
    refine ⟨⟨by linarith, by linarith⟩, by linarith, by linarith⟩
  have shelf : ∀ a b β : ℝ, 0 < β → |b| < a →
      |(a - β) / (a + β)| < 1 ∧ |(2 * b) / (a + β)| < 1 + (a - β) / (a + β) := by
    intro a b β h1 h2
    have h0 : 0 < a := (abs_nonneg b).trans_lt h2
    have h4 : 0 < a + β := by linarith
    have e : 1 + (a - β) / (a + β) = 2 * a / (a + β) := by field_simp; ring
    rw [abs_lt] at h2
    rw [e, abs_div, abs_div, abs_of_pos h4, div_lt_one h4, div_lt_div_iff_of_pos_right h4, abs_lt, abs_lt]
    refine ⟨⟨by linarith, by linarith⟩, by linarith, by linarith⟩
  generalize hcd : Real.cos (2 * Real.pi * p.f / fs) = c at hc1 hc2
  generalize had : Real.sin (2 * Real.pi * p.f / fs) / (2 * p.q) = α at ha
  generalize hAd : Real.sqrt (dB2linear p.gain) = A at hA hr
  apply exists_poles
  · unfold design
    simp only [hcd, had, hAd]
    split
    · exact (simple c α hc2 hc1 ha).1
    · exact (simple c α hc2 hc1 ha).1
    · exact (simple c α hc2 hc1 ha).1
    · exact (simple c α hc2 hc1 ha).1
    · exact (simple c α hc2 hc1 ha).1
    · exact (simple c (α / A) hc2 hc1 (by positivity)).1
    · refine (shelf ((A + 1) + (A - 1) * c) ((A - 1) + (A + 1) * c) (2 * Real.sqrt A * α) (by positivity) ?_).1
      rw [abs_lt]; constructor <;> nlinarith
    · refine (shelf ((A + 1) - (A - 1) * c) ((A - 1) - (A + 1) * c) (2 * Real.sqrt A * α) (by positivity) ?_).1
      rw [abs_lt]; constructor <;> nlinarith
  · unfold design
    simp only [hcd, had, hAd]
    split
    · exact (simple c α hc2 hc1 ha).2
    · exact (simple c α hc2 hc1 ha).2
    · exact (simple c α hc2 hc1 ha).2
    · exact (simple c α hc2 hc1 ha).2
    · exact (simple c α hc2 hc1 ha).2
    · exact (simple c (α / A) hc2 hc1 (by positivity)).2
    · rw [show -2 * (A - 1 + (A + 1) * c) = 2 * (-(A - 1 + (A + 1) * c)) by ring]
      refine (shelf ((A + 1) + (A - 1) * c) (-((A - 1) + (A + 1) * c)) (2 * Real.sqrt A * α) (by positivity) ?_).2
      rw [abs_lt]; constructor <;> nlinarith
    · refine (shelf ((A + 1) - (A - 1) * c) ((A - 1) - (A + 1) * c) (2 * Real.sqrt A * α) (by positivity) ?_).2
      rw [abs_lt]; constructor <;> nlinarith

theorem flat_poles : ∃ u v, Poles Coef.flat u v := exists_poles (by simp [Coef.flat]) (by simp [Coef.flat])

/-! ### Complex gains of the designed sections -/

/-- Denominators of the prototypes do not vanish on the imaginary axis. -/
theorem axis_ne {a b m τ : ℝ} (ha : a ≠ 0) (hm : m ≠ 0) :
    (b : ℂ) * (Complex.I * τ) ^ 2 + (m : ℂ) * (Complex.I * τ) + (a : ℂ) ≠ 0 := by
  intro h
  have e : (b : ℂ) * (Complex.I * τ) ^ 2 + (m : ℂ) * (Complex.I * τ) + (a : ℂ) =
      ((a - b * τ ^ 2 : ℝ) : ℂ) + ((m * τ : ℝ) : ℂ) * Complex.I := by
    push_cast
    linear_combination (b : ℂ) * (τ : ℂ) ^ 2 * Complex.I_sq
  rw [e] at h
  have him := congrArg Complex.im h
  have hre := congrArg Complex.re h
  simp only [Complex.add_im, Complex.add_re, Complex.ofReal_im, Complex.ofReal_re, Complex.mul_im, Complex.mul_re,
    Complex.I_re, Complex.I_im, Complex.zero_im, Complex.zero_re] at him hre
  have h1 : m * τ = 0 := by linarith
  rcases mul_eq_zero.1 h1 with h2 | h2
  · exact hm h2
  · rw [h2] at hre
    apply ha
    linarith

theorem quotient_eq {n d u v a0 A1 A2 B0 B1 B2 : ℂ} (hd : d ≠ 0) (hv : v ≠ 0) (ha : a0 ≠ 0)
    (h : n * (a0 * u ^ 2 + A1 * u * v + A2 * v ^ 2) = (B0 * u ^ 2 + B1 * u * v + B2 * v ^ 2) * d) :
    n / d * ((u / v) ^ 2 + A1 / a0 * (u / v) + A2 / a0) = B0 / a0 * (u / v) ^ 2 + B1 / a0 * (u / v) + B2 / a0 := by
  rw [div_mul_eq_mul_div, div_eq_iff hd]
  field_simp
  linear_combination h

theorem design_gain {fs : ℝ} {p : Section ℝ} (h : Realisable fs p) {tone : ℝ}
    (hn : Real.cos (Real.pi * tone / fs) ≠ 0) :
    Gain (design p fs) (Complex.exp (Complex.I * (2 * Real.pi * tone / fs : ℝ)))
      (prototype p (warped tone p.f fs)) := by
  obtain ⟨hT, hcos, hsin⟩ := centre h
  have hq := h.qpos
  have hA := halfGain_pos p
  have hr : 0 < Real.sqrt (halfGain p) := Real.sqrt_pos.2 hA
  have hr2 : Real.sqrt (halfGain p) ^ 2 = halfGain p := Real.sq_sqrt hA.le
  obtain ⟨hz, hz0⟩ := circle_point (w := 2 * Real.pi * tone / fs) (t := Real.tan (Real.pi * tone / fs))
    (by rw [show 2 * Real.pi * tone / fs / 2 = Real.pi * tone / fs by ring]; exact hn)
    (by rw [show 2 * Real.pi * tone / fs / 2 = Real.pi * tone / fs by ring])
  rw [hz]
  unfold warped
  generalize Real.tan (Real.pi * tone / fs) = t at hz0 ⊢
  have hdB : Real.sqrt (dB2linear p.gain) = halfGain p := by rw [sqrt_dB]; rfl
  unfold Gain design prototype
  simp only [hcos, hsin, hdB]
  generalize Real.tan (Real.pi * p.f / fs) = T at hT ⊢
  generalize halfGain p = A at hA hr hr2 ⊢
  generalize Real.sqrt A = r at hr hr2 ⊢
  generalize p.q = Q at hq ⊢
  have d1 : (Complex.I * ((t / T : ℝ) : ℂ)) ^ 2 + (Complex.I * ((t / T : ℝ) : ℂ)) / Q + 1 ≠ 0 := by
    have := axis_ne (a := 1) (b := 1) (m := 1 / Q) (τ := t / T) one_ne_zero (by positivity)
    push_cast at this ⊢
    intro hc; apply this; rw [← hc]; ring
  have d2 : (Complex.I * ((t / T : ℝ) : ℂ)) ^ 2 + (Complex.I * ((t / T : ℝ) : ℂ)) / (A * Q) + 1 ≠ 0 := by
    have := axis_ne (a := 1) (b := 1) (m := 1 / (A * Q)) (τ := t / T) one_ne_zero (by positivity)
    push_cast at this ⊢
    intro hc; apply this; rw [← hc]; ring
  have d3 : (A : ℂ) * (Complex.I * ((t / T : ℝ) : ℂ)) ^ 2 + (r / Q) * (Complex.I * ((t / T : ℝ) : ℂ)) + 1 ≠ 0 := by
    have := axis_ne (a := 1) (b := A) (m := r / Q) (τ := t / T) one_ne_zero (by positivity)
    push_cast at this ⊢
    exact this
  have d4 : (Complex.I * ((t / T : ℝ) : ℂ)) ^ 2 + (r / Q) * (Complex.I * ((t / T : ℝ) : ℂ)) + (A : ℂ) ≠ 0 := by
    have := axis_ne (a := A) (b := 1) (m := r / Q) (τ := t / T) hA.ne' (by positivity)
    push_cast at this ⊢
    rw [one_mul] at this
    exact this
  have hTC : (T : ℂ) ≠ 0 := by exact_mod_cast hT.ne'
  have hQC : (Q : ℂ) ≠ 0 := by exact_mod_cast hq.ne'
  have hAC : (A : ℂ) ≠ 0 := by exact_mod_cast hA.ne'
  have hrC : (r : ℂ) ≠ 0 := by exact_mod_cast hr.ne'
  have hT2 : 1 + (T : ℂ) ^ 2 ≠ 0 := by exact_mod_cast (by positivity : 1 + T ^ 2 ≠ 0)
  have ha0 : (1 : ℂ) + 2 * T / (1 + T ^ 2) / (2 * Q) ≠ 0 := by
    exact_mod_cast (by positivity : 1 + 2 * T / (1 + T ^ 2) / (2 * Q) ≠ 0)
  have ha1 : (1 : ℂ) + 2 * T / (1 + T ^ 2) / (2 * Q) / A ≠ 0 := by
    exact_mod_cast (by positivity : 1 + 2 * T / (1 + T ^ 2) / (2 * Q) / A ≠ 0)
  have ha2 : ((A : ℂ) + 1) + (A - 1) * ((1 - T ^ 2) / (1 + T ^ 2)) + 2 * r * (2 * T / (1 + T ^ 2) / (2 * Q)) ≠ 0 := by
    have : (A + 1) + (A - 1) * ((1 - T ^ 2) / (1 + T ^ 2)) + 2 * r * (2 * T / (1 + T ^ 2) / (2 * Q)) ≠ 0 := by
      have : (A + 1) + (A - 1) * ((1 - T ^ 2) / (1 + T ^ 2)) = 2 * (A + T ^ 2) / (1 + T ^ 2) := by field_simp; ring
      rw [this]; positivity
    exact_mod_cast this
  have ha3 : ((A : ℂ) + 1) - (A - 1) * ((1 - T ^ 2) / (1 + T ^ 2)) + 2 * r * (2 * T / (1 + T ^ 2) / (2 * Q)) ≠ 0 := by
    have : (A + 1) - (A - 1) * ((1 - T ^ 2) / (1 + T ^ 2)) + 2 * r * (2 * T / (1 + T ^ 2) / (2 * Q)) ≠ 0 := by
      have : (A + 1) - (A - 1) * ((1 - T ^ 2) / (1 + T ^ 2)) = 2 * (1 + A * T ^ 2) / (1 + T ^ 2) := by field_simp; ring
      rw [this]; positivity
    exact_mod_cast this
  have hst : Complex.I * (t : ℂ) = Complex.I * ((t / T : ℝ) : ℂ) * T := by push_cast; field_simp
  rw [hst] at hz0 ⊢
  generalize Complex.I * ((t / T : ℝ) : ℂ) = s at hz0 d1 d2 d3 d4 ⊢
  have hr2C : (A : ℂ) = (r : ℂ) ^ 2 := by exact_mod_cast hr2.symm
  cases p.typ <;> simp only [] <;> push_cast
  · rw [div_mul_eq_mul_div, div_eq_iff d1]
    generalize hAl : (2 * (T : ℂ) / (1 + (T : ℂ) ^ 2) / (2 * (Q : ℂ))) = α at *
    field_simp
    subst hAl
    field_simp
    ring
  · rw [div_mul_eq_mul_div, div_eq_iff d1]
    generalize hAl : (2 * (T : ℂ) / (1 + (T : ℂ) ^ 2) / (2 * (Q : ℂ))) = α at *
    field_simp
    subst hAl
    field_simp
    ring
  · rw [div_mul_eq_mul_div, div_eq_iff d1]
    generalize hAl : (2 * (T : ℂ) / (1 + (T : ℂ) ^ 2) / (2 * (Q : ℂ))) = α at *
    field_simp
    subst hAl
    field_simp
    ring
  · rw [div_mul_eq_mul_div, div_eq_iff d1]
    generalize hAl : (2 * (T : ℂ) / (1 + (T : ℂ) ^ 2) / (2 * (Q : ℂ))) = α at *
    field_simp
    subst hAl
    field_simp
    ring
  · refine quotient_eq d2 hz0 ha1 ?_
    field_simp
    ring
  · refine quotient_eq d3 hz0 ha2 ?_
    rw [hr2C]
    field_simp
    ring
  · refine quotient_eq d4 hz0 ha3 ?_
    rw [hr2C]
    field_simp
    ring
  · rw [div_mul_eq_mul_div, div_eq_iff d1]
    generalize hAl : (2 * (T : ℂ) / (1 + (T : ℂ) ^ 2) / (2 * (Q : ℂ))) = α at *
    field_simp
    subst hAl
    field_simp
    ring

/-- Gain at half the sampling frequency. -/
theorem design_gain_top {fs : ℝ} {p : Section ℝ} (h : Realisable fs p) :
    Gain (design p fs) (-1) (prototypeTop p) := by
  obtain ⟨hT, hcos, hsin⟩ := centre h
  have hq := h.qpos
  have hA := halfGain_pos p
  have hr : 0 < Real.sqrt (halfGain p) := Real.sqrt_pos.2 hA
  have hdB : Real.sqrt (dB2linear p.gain) = halfGain p := by rw [sqrt_dB]; rfl
  unfold Gain design prototypeTop
  simp only [hcos, hsin, hdB]
  generalize Real.tan (Real.pi * p.f / fs) = T at hT ⊢
  generalize halfGain p = A at hA hr ⊢
  generalize Real.sqrt A = r at hr ⊢
  generalize p.q = Q at hq ⊢
  have ha0 : 1 + 2 * T / (1 + T ^ 2) / (2 * Q) ≠ 0 := by positivity
  have ha1 : 1 + 2 * T / (1 + T ^ 2) / (2 * Q) / A ≠ 0 := by positivity
  have ha2 : (A + 1) + (A - 1) * ((1 - T ^ 2) / (1 + T ^ 2)) + 2 * r * (2 * T / (1 + T ^ 2) / (2 * Q)) ≠ 0 := by
    have : (A + 1) + (A - 1) * ((1 - T ^ 2) / (1 + T ^ 2)) = 2 * (A + T ^ 2) / (1 + T ^ 2) := by field_simp; ring
    rw [this]; positivity
  have ha3 : (A + 1) - (A - 1) * ((1 - T ^ 2) / (1 + T ^ 2)) + 2 * r * (2 * T / (1 + T ^ 2) / (2 * Q)) ≠ 0 := by
    have : (A + 1) - (A - 1) * ((1 - T ^ 2) / (1 + T ^ 2)) = 2 * (1 + A * T ^ 2) / (1 + T ^ 2) := by field_simp; ring
    rw [this]; positivity
  generalize hal : 2 * T / (1 + T ^ 2) / (2 * Q) = α at *
  generalize hc : (1 - T ^ 2) / (1 + T ^ 2) = c at *
  have key : ∀ b0 b1 b2 a1 a2 H : ℝ, H * (1 - a1 + a2) = b0 - b1 + b2 →
      (H : ℂ) * ((-1) ^ 2 + (a1 : ℂ) * (-1) + (a2 : ℂ)) = (b0 : ℂ) * (-1) ^ 2 + (b1 : ℂ) * (-1) + (b2 : ℂ) := by
    intro b0 b1 b2 a1 a2 H h
    have h' := congrArg Complex.ofReal h
    push_cast at h'
    linear_combination h'
  have haA : A + α ≠ 0 := by rw [← hal]; positivity
  cases p.typ <;> simp only [] <;> apply key
  · field_simp; ring
  · field_simp; ring
  · field_simp; ring
  · field_simp; ring
  · field_simp; ring
  · field_simp; ring
  · field_simp; ring
  · field_simp; ring

/-! ### The property -/

/-- Gain of a section for any tone between zero and half the sampling frequency. -/
theorem section_gain {fs : ℝ} {p : Section ℝ} (h : Realisable fs p) {tone : ℝ} (h0 : 0 ≤ tone) (h1 : tone ≤ fs / 2) :
    Gain (design p fs) (Complex.exp (Complex.I * (2 * Real.pi * tone / fs : ℝ))) (gainAt p fs tone) := by
  have hfs : 0 < fs := by have := h.fpos; have := h.flt; linarith
  unfold gainAt
  split_ifs with ht
  · have : Complex.exp (Complex.I * (2 * Real.pi * tone / fs : ℝ)) = -1 := by
      rw [ht, show 2 * Real.pi * (fs / 2) / fs = Real.pi by field_simp, mul_comm, Complex.exp_pi_mul_I]
    rw [this]
    exact design_gain_top h
  · refine design_gain h (ne_of_gt (Real.cos_pos_of_mem_Ioo ⟨?_, ?_⟩))
    · have : 0 ≤ Real.pi * tone / fs := by have := Real.pi_pos; positivity
      have := Real.pi_pos
      linarith
    · rw [div_lt_iff₀ hfs]
      have : tone < fs / 2 := lt_of_le_of_ne h1 ht
      have := Real.pi_pos
      nlinarith

theorem flat_gain (z : ℂ) : Gain Coef.flat z 1 := by
  simp [Gain, Coef.flat]

theorem designList_ok {ps : List (Section ℝ)} {old : List (Coef ℝ)} (fs : ℝ) (hl : ps.length ≤ old.length) :
    designList ps old fs = .ok (ps.map (fun p => design p fs) ++ List.replicate (old.length - ps.length) Coef.flat) := by
  rw [designList, if_neg (by omega)]

theorem designed_poles {fs : ℝ} {ps : List (Section ℝ)} (hp : ∀ p ∈ ps, Realisable fs p) (m : ℕ) :
    ∀ c ∈ ps.map (fun p => design p fs) ++ List.replicate m Coef.flat, ∃ u v, Poles c u v := by
  intro c hc
  rcases List.mem_append.1 hc with hc | hc
  · obtain ⟨p, hpm, rfl⟩ := List.mem_map.1 hc
    exact design_poles (hp p hpm)
  · rw [List.eq_of_mem_replicate hc]; exact flat_poles

/-- C53: the filter made from a list of realisable settings exists whenever there are enough sections; for every tone
between 0 Hz and half the sampling frequency its complex gain is the product of the gains of the analogue filters named
by the settings. -/
theorem equaliser_response {fs : ℝ} {ps : List (Section ℝ)} (hp : ∀ p ∈ ps, Realisable fs p) {old : List (Coef ℝ)}
    (hl : ps.length ≤ old.length) :
    ∃ cs, designList ps old fs = .ok cs ∧ cs.length = old.length ∧ ∀ tone, 0 ≤ tone → tone ≤ fs / 2 →
      Responds (filtered cs) fs tone (ps.map fun p => gainAt p fs tone).prod := by
  refine ⟨_, designList_ok fs hl, by simp; omega, fun tone h0 h1 => ?_⟩
  have key := responds_of_gain (fs := fs) (tone := tone) (designed_poles hp (old.length - ps.length))
    (Hs := (ps.map fun p => gainAt p fs tone) ++ List.replicate (old.length - ps.length) 1) ?_
  · simpa using key
  · refine List.rel_append ?_ ?_
    · rw [List.forall₂_map_left_iff, List.forall₂_map_right_iff, List.forall₂_same]
      exact fun p hpm => section_gain (hp p hpm) h0 h1
    · rw [List.forall₂_iff_get]
      refine ⟨by simp, fun i _ _ => ?_⟩
      simp only [List.get_eq_getElem, List.getElem_replicate]
      exact flat_gain _

/-- C53: the filter made from realisable settings is stable. -/
theorem equaliser_stable {fs : ℝ} {ps : List (Section ℝ)} (hp : ∀ p ∈ ps, Realisable fs p) {old cs : List (Coef ℝ)}
    (h : designList ps old fs = .ok cs) : Stable (filtered cs) := by
  rw [designList] at h
  split_ifs at h
  injection h with h
  subst h
  exact stable_of_poles (designed_poles hp _)

/-- C53: settings that do not fit are refused. -/
theorem too_many_settings (fs : ℝ) {ps : List (Section ℝ)} {old : List (Coef ℝ)} (h : old.length < ps.length) :
    designList ps old fs = .throw .invalidArgument := by
  rw [designList, if_pos h]

/-! ### What this means for the amplitude -/

/-- Amplitude gain given in decibel. -/
noncomputable def amplitude (dB : ℝ) : ℝ := (10 : ℝ) ^ (dB / 20)

theorem halfGain_sq (p : Section ℝ) : halfGain p ^ 2 = amplitude p.gain := by
  rw [halfGain, amplitude, ← Real.rpow_natCast, ← Real.rpow_mul (by norm_num)]
  congr 1
  push_cast
  ring

/-- C53: gain at 0 Hz. -/
theorem gain_at_zero {fs : ℝ} {p : Section ℝ} (h : Realisable fs p) :
    ‖gainAt p fs 0‖ = match p.typ with
      | .lowpass => 1 | .highpass => 0 | .bandpass => 0 | .bandstop => 1 | .allpass => 1 | .peak => 1
      | .lowshelf => amplitude p.gain | .highshelf => 1 := by
  have hfs : 0 < fs := by have := h.fpos; have := h.flt; linarith
  have hA := halfGain_pos p
  have hAC : ((halfGain p : ℝ) : ℂ) ≠ 0 := by exact_mod_cast hA.ne'
  have hw : warped 0 p.f fs = 0 := by simp [warped]
  rw [gainAt, if_neg (by linarith), hw, prototype]
  cases p.typ <;> simp
  · rw [← sq, halfGain_sq]
  · exact hA.ne'

/-- C53: gain at half the sampling frequency. -/
theorem gain_at_top {fs : ℝ} {p : Section ℝ} :
    ‖gainAt p fs (fs / 2)‖ = match p.typ with
      | .lowpass => 0 | .highpass => 1 | .bandpass => 0 | .bandstop => 1 | .allpass => 1 | .peak => 1
      | .lowshelf => 1 | .highshelf => amplitude p.gain := by
  have hA := halfGain_pos p
  rw [gainAt, if_pos rfl, prototypeTop]
  cases p.typ <;> simp
  rw [halfGain_sq]

/-- C53: gain at the frequency of the setting. -/
theorem gain_at_centre {fs : ℝ} {p : Section ℝ} (h : Realisable fs p) :
    ‖gainAt p fs p.f‖ = match p.typ with
      | .lowpass => p.q | .highpass => p.q | .bandpass => 1 | .bandstop => 0 | .allpass => 1
      | .peak => amplitude p.gain
      | .lowshelf => amplitude (p.gain / 2) | .highshelf => amplitude (p.gain / 2) := by
  have hA := halfGain_pos p
  have hq := h.qpos
  have hT := (centre h).1
  have hAC : ((halfGain p : ℝ) : ℂ) ≠ 0 := by exact_mod_cast hA.ne'
  have hQC : ((p.q : ℝ) : ℂ) ≠ 0 := by exact_mod_cast hq.ne'
  have hw : warped p.f p.f fs = Complex.I := by simp [warped, hT.ne']
  have hhalf : amplitude (p.gain / 2) = halfGain p := by
    rw [amplitude, halfGain]; congr 1; ring
  have hm : ∀ u v : ℝ, ‖(u : ℂ) + v * Complex.I‖ = ‖((-u : ℝ) : ℂ) + v * Complex.I‖ := by
    intro u v
    rw [Complex.norm_add_mul_I, Complex.norm_add_mul_I, neg_sq]
  have hI : Complex.I ≠ 0 := Complex.I_ne_zero
  have hmne : ∀ u v : ℝ, v ≠ 0 → ‖(u : ℂ) + v * Complex.I‖ ≠ 0 := by
    intro u v hv hc
    rw [norm_eq_zero] at hc
    have := congrArg Complex.im hc
    simp at this
    exact hv this
  have hr : 0 < Real.sqrt (halfGain p) := Real.sqrt_pos.2 hA
  rw [gainAt, if_neg (by have := h.flt; exact this.ne), hw, prototype, hhalf]
  cases p.typ <;> simp only [Complex.I_sq]
  · rw [show (-1 : ℂ) + Complex.I / p.q + 1 = Complex.I / p.q by ring]
    simp [abs_of_pos hq]
  · rw [show (-1 : ℂ) + Complex.I / p.q + 1 = Complex.I / p.q by ring]
    simp [abs_of_pos hq]
  · rw [show (-1 : ℂ) + Complex.I / p.q + 1 = Complex.I / p.q by ring, div_self (div_ne_zero hI hQC), norm_one]
  · rw [neg_add_cancel, zero_div, norm_zero]
  · rw [show (-1 : ℂ) + Complex.I * (halfGain p / p.q) + 1 = Complex.I * (halfGain p / p.q) by ring,
      show (-1 : ℂ) + Complex.I / (halfGain p * p.q) + 1 = Complex.I / (halfGain p * p.q) by ring, ← halfGain_sq]
    rw [show Complex.I * ((halfGain p : ℂ) / p.q) / (Complex.I / (halfGain p * p.q)) = ((halfGain p ^ 2 : ℝ) : ℂ) by
      push_cast; field_simp]
    rw [Complex.norm_real, Real.norm_eq_abs, abs_of_pos (by positivity)]
  · rw [show (-1 : ℂ) + (Real.sqrt (halfGain p) : ℂ) / p.q * Complex.I + halfGain p =
        ((halfGain p - 1 : ℝ) : ℂ) + ((Real.sqrt (halfGain p) / p.q : ℝ) : ℂ) * Complex.I by push_cast; ring,
      show (halfGain p : ℂ) * -1 + (Real.sqrt (halfGain p) : ℂ) / p.q * Complex.I + 1 =
        ((-(halfGain p - 1) : ℝ) : ℂ) + ((Real.sqrt (halfGain p) / p.q : ℝ) : ℂ) * Complex.I by push_cast; ring]
    rw [norm_div, norm_mul, hm, mul_div_assoc, div_self (hmne _ _ (by positivity)), mul_one, Complex.norm_real,
      Real.norm_eq_abs, abs_of_pos hA]
  · rw [show (-1 : ℂ) + (Real.sqrt (halfGain p) : ℂ) / p.q * Complex.I + halfGain p =
        ((halfGain p - 1 : ℝ) : ℂ) + ((Real.sqrt (halfGain p) / p.q : ℝ) : ℂ) * Complex.I by push_cast; ring,
      show (halfGain p : ℂ) * -1 + (Real.sqrt (halfGain p) : ℂ) / p.q * Complex.I + 1 =
        ((-(halfGain p - 1) : ℝ) : ℂ) + ((Real.sqrt (halfGain p) / p.q : ℝ) : ℂ) * Complex.I by push_cast; ring]
    rw [norm_div, norm_mul, ← hm, mul_div_assoc, div_self (hmne _ _ (by positivity)), mul_one, Complex.norm_real,
      Real.norm_eq_abs, abs_of_pos hA]
  · rw [show (-1 : ℂ) - Complex.I / p.q + 1 = -(Complex.I / p.q) by ring,
      show (-1 : ℂ) + Complex.I / p.q + 1 = Complex.I / p.q by ring, neg_div, div_self (div_ne_zero hI hQC), norm_neg,
      norm_one]

/-- C53: an all-pass section keeps the amplitude of every tone. -/
theorem allpass_gain {fs : ℝ} {p : Section ℝ} (ht : p.typ = .allpass) (h : Realisable fs p) (tone : ℝ) :
    ‖gainAt p fs tone‖ = 1 := by
  have hq := h.qpos
  unfold gainAt
  split_ifs with hc
  · simp [prototypeTop, ht]
  · simp only [prototype, ht, warped]
    generalize Real.tan (Real.pi * tone / fs) / Real.tan (Real.pi * p.f / fs) = τ
    have e1 : (Complex.I * (τ : ℂ)) ^ 2 - Complex.I * (τ : ℂ) / p.q + 1 =
        ((1 - τ ^ 2 : ℝ) : ℂ) + ((-(τ / p.q) : ℝ) : ℂ) * Complex.I := by
      push_cast
      linear_combination (τ : ℂ) ^ 2 * Complex.I_sq
    have e2 : (Complex.I * (τ : ℂ)) ^ 2 + Complex.I * (τ : ℂ) / p.q + 1 =
        ((1 - τ ^ 2 : ℝ) : ℂ) + ((τ / p.q : ℝ) : ℂ) * Complex.I := by
      push_cast
      linear_combination (τ : ℂ) ^ 2 * Complex.I_sq
    have hne : (Complex.I * (τ : ℂ)) ^ 2 + Complex.I * (τ : ℂ) / p.q + 1 ≠ 0 := by
      have := axis_ne (a := 1) (b := 1) (m := 1 / p.q) (τ := τ) one_ne_zero (by positivity)
      push_cast at this ⊢
      intro hc; apply this; rw [← hc]; ring
    rw [norm_div]
    have hn : ‖(Complex.I * (τ : ℂ)) ^ 2 - Complex.I * (τ : ℂ) / p.q + 1‖ =
        ‖(Complex.I * (τ : ℂ)) ^ 2 + Complex.I * (τ : ℂ) / p.q + 1‖ := by
      rw [e1, e2, Complex.norm_add_mul_I, Complex.norm_add_mul_I, neg_sq]
    rw [hn, div_self (norm_ne_zero_iff.2 hne)]

/-- C53: the default setting does not change the amplitude of any tone, at any sampling frequency above 2 Hz. -/
theorem default_setting {fs : ℝ} (h : 2 < fs) (tone : ℝ) : ‖gainAt defaultSection fs tone‖ = 1 :=
  allpass_gain rfl ⟨by norm_num [defaultSection], by simp only [defaultSection]; linarith, by norm_num [defaultSection]⟩
    tone

/-! ### Settings that are not realisable are not refused -/

/-- A low-pass filter at three quarters of the sampling frequency. -/
noncomputable def tooHigh (fs : ℝ) : Section ℝ := ⟨.lowpass, 3 / 4 * fs, 1, 0⟩

theorem tooHigh_design {fs : ℝ} (h : 0 < fs) : design (tooHigh fs) fs = ⟨1, 2, 1, 0, 3⟩ := by
  have e : 2 * Real.pi * (3 / 4 * fs) / fs = Real.pi / 2 + Real.pi := by field_simp; ring
  simp only [design, tooHigh, e, Real.sin_add_pi, Real.cos_add_pi, Real.sin_pi_div_two, Real.cos_pi_div_two]
  norm_num

/-- Settings above half the sampling frequency are accepted and yield a filter that turns a single impulse into a signal
that grows beyond all bounds. -/
theorem above_half_sampling_frequency_unstable {fs : ℝ} (h : 0 < fs) :
    ¬ Stable (filtered [design (tooHigh fs) fs]) := by
  rw [tooHigh_design h]
  intro hs
  obtain ⟨B, hB⟩ := hs (fun n => if n = 0 then 1 else 0) 1 (by intro n; split_ifs <;> simp)
  have hy : ∀ k : ℕ, filtered [⟨1, 2, 1, 0, 3⟩] (fun n => if n = 0 then 1 else 0) (2 * k + 2) = -2 * (-3) ^ k := by
    intro k
    induction k with
    | zero => norm_num [filtered, cascade, iir]
    | succ k ih =>
      have e : 2 * (k + 1) + 2 = (2 * k + 2) + 2 := by ring
      simp only [filtered, cascade, List.length_singleton] at ih ⊢
      rw [e, iir, ih]
      simp
      ring
  have ht : Tendsto (fun k : ℕ => (2 : ℝ) * 3 ^ k) atTop atTop :=
    (tendsto_pow_atTop_atTop_of_one_lt (by norm_num)).const_mul_atTop (by norm_num)
  obtain ⟨k, hk⟩ := (ht.eventually_gt_atTop B).exists
  have := hB (2 * k + 2)
  rw [hy, abs_mul, abs_pow] at this
  norm_num at this
  linarith

/-! ### Examples -/

/-- A peak of 6 dB at 1 kHz and a high-pass filter at 80 Hz can be realised at 48 kHz. -/
example : ∀ p ∈ ([⟨.peak, 1000, 1.4, 6⟩, ⟨.highpass, 80, 0.7, 0⟩] : List (Section ℝ)), Realisable 48000 p := by
  intro p hp
  simp only [List.mem_cons, List.not_mem_nil, or_false] at hp
  rcases hp with rfl | rfl <;> constructor <;> norm_num

example : ∃ cs, designList [⟨.peak, 1000, 1.4, 6⟩] [Coef.flat, Coef.flat] 48000 = .ok cs ∧ Stable (filtered cs) := by
  have hp : ∀ p ∈ ([⟨.peak, 1000, 1.4, 6⟩] : List (Section ℝ)), Realisable 48000 p := by
    intro p hp
    simp only [List.mem_cons, List.not_mem_nil, or_false] at hp
    rcases hp with rfl; constructor <;> norm_num
  obtain ⟨cs, h, -⟩ := equaliser_response hp (old := [Coef.flat, Coef.flat]) (by simp)
  exact ⟨cs, h, equaliser_stable hp h⟩

end Visr.EqDesign
