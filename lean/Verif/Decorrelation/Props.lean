import Verif.Decorrelation.Lemmas

/-!
# C93: decorrelation filters of the late reverberation
-/

namespace Visr.Decorrelation
open Visr Visr.Convolver Finset ComplexConjugate

/-- `"default"` is KISS FFT in every build. -/
theorem create_default (b : Build) (L a : Nat) : create b false "default" (2 * L) a = .ok (dft L) := by
  have h : find b false "default" = some .kiss := by
    rw [find, show ("default" : String).toLower = "default" by decide +kernel]
    rfl
  rw [create, h]
  show (if 2 * L % 2 = 1 then _ else _) = _
  rw [if_neg (by omega), show 2 * L / 2 = L by omega]

theorem generate_eq (b : Build) (n L : Nat) (hL : 0 < L) (draw : Nat → ℝ) (g : ℝ) :
    generateRandomPhaseAllpass b n (2 * L) draw g =
      .ok (rowsFrom (dft L) (2 * L) (g / (((2 * L : Nat) : ℝ) * (dft L).is)) draw n 0) := by
  rw [generateRandomPhaseAllpass, generateWith, create_default]
  cases n with
  | zero => simp [rowsFrom]
  | succ n => simp only [Nat.add_eq_zero_iff, Nat.one_ne_zero, and_false, if_false]; rw [if_neg (by omega)]

theorem row_of_mem {fft : Fft ℝ ℂ} {len : Nat} {s : ℝ} {draw : Nat → ℝ} {n : Nat} {h : List ℝ}
    (hh : h ∈ rowsFrom fft len s draw n 0) : ∃ i < n, h = filterRow fft len s draw (i * (len / 2 - 1)) := by
  obtain ⟨i, hi⟩ := List.mem_iff_getElem?.mp hh
  have hl : i < n := by
    have := (List.getElem?_eq_some_iff.mp hi).1
    rwa [rowsFrom_length] at this
  rw [rowsFrom_get _ _ _ _ _ _ _ hl, zero_add] at hi
  exact ⟨i, hl, (Option.some.inj hi).symm⟩

/-- For every even length, every gain and all random phases, the generated filters have the requested length, their magnitude
response is the gain at each frequency of the grid, and their energy is the square of the gain. -/
theorem allpass (b : Build) (n L : Nat) (hL : 0 < L) (draw : Nat → ℝ) (g : ℝ) :
    ∃ rows, generateRandomPhaseAllpass b n (2 * L) draw g = .ok rows ∧ rows.length = n ∧
      ∀ h ∈ rows, h.length = 2 * L ∧ energy h = g ^ 2 ∧
        ∀ k < 2 * L, ‖response h (2 * Real.pi * k / (2 * L : Nat))‖ = |g| := by
  refine ⟨_, generate_eq b n L hL draw g, rowsFrom_length .., fun h hh => ?_⟩
  obtain ⟨i, _, rfl⟩ := row_of_mem hh
  refine ⟨filterRow_length, energy_row L hL g draw _, fun k hk => ?_⟩
  rw [response_row L hL g draw _ k hk, norm_mul, full_norm (fun k _ => freqResponse_norm _ _ _ k), mul_one, Complex.norm_real,
    Real.norm_eq_abs]

/-- The phase of the `i`-th filter at the `k`-th frequency of the grid is the `k`-th of the values drawn for this filter; each
filter has values of its own. Missing: the two ends of the frequency range (`same_at_ends`) and the IPP wrapper (`ipp_too_small`). -/
theorem phases_partial (b : Build) (n L : Nat) (draw : Nat → ℝ) (g : ℝ) (i k : Nat) (hi : i < n) (h0 : 0 < k) (hk : k < L) :
    ∃ rows h, generateRandomPhaseAllpass b n (2 * L) draw g = .ok rows ∧ rows[i]? = some h ∧
      response h (2 * Real.pi * k / (2 * L : Nat)) =
        g * Complex.exp ((draw (i * (L - 1) + (k - 1)) : ℂ) * Complex.I) := by
  refine ⟨_, _, generate_eq b n L (by omega) draw g, rowsFrom_get _ _ _ _ _ _ _ hi, ?_⟩
  rw [response_row L (by omega) g draw _ k (by omega), full, if_pos (by omega), freqResponse, if_neg (by omega), if_neg (by omega),
    polar, zero_add, show 2 * L / 2 = L by omega]

/-- Odd lengths are refused. -/
theorem odd_refused (b : Build) (n L : Nat) (draw : Nat → ℝ) (g : ℝ) :
    generateRandomPhaseAllpass b n (2 * L + 1) draw g = .throw .invalidArgument := by
  have h : find b false "default" = some .kiss := by
    rw [find, show ("default" : String).toLower = "default" by decide +kernel]
    rfl
  have : create b false "default" (2 * L + 1) 0 = .throw .invalidArgument := by
    rw [create, h]
    show (if (2 * L + 1) % 2 = 1 then _ else _) = _
    rw [if_pos (by omega)]
  rw [generateRandomPhaseAllpass, generateWith, this]

theorem sum_const {α : Type} (l : List α) (f : α → ℝ) (c : ℝ) (h : ∀ x ∈ l, f x = c) : (l.map f).sum = l.length * c := by
  induction l with
  | nil => simp
  | cons a l ih =>
    rw [List.map_cons, List.sum_cons, ih fun x hx => h x (by simp [hx]), h a (by simp)]
    push_cast [List.length_cons]
    ring

/-- Without a configured gain (or with one that is not a number), the loudspeakers together radiate what enters the
decorrelation filters: the powers add up to one at each frequency of the grid, and so do the energies. -/
theorem default_power (b : Build) (sndfile : Bool) (draw : Nat → ℝ) (gain : Entry ℝ) (hg : gain.get? = none) (n : Nat)
    (hn : 0 < n) :
    ∃ rows, lateDecorrelationFilters b sndfile draw ⟨none, gain⟩ n = .ok rows ∧ rows.length = n ∧
      (∀ h ∈ rows, h.length = 512) ∧ (rows.map energy).sum = 1 ∧
      ∀ k : Nat, k < 512 → (rows.map fun h => ‖response h (2 * Real.pi * k / 512)‖ ^ 2).sum = 1 := by
  have hG : decorrelatorGain gain n = 1 / Real.sqrt n := by
    cases gain with
    | missing => rfl
    | malformed => rfl
    | val a => simp [Entry.get?] at hg
  obtain ⟨rows, h1, h2, h3⟩ := allpass b n 256 (by norm_num) draw (1 / Real.sqrt n)
  have hn' : (0 : ℝ) < n := by exact_mod_cast hn
  have hsq : (1 / Real.sqrt n) ^ 2 = 1 / (n : ℝ) := by rw [div_pow, one_pow, Real.sq_sqrt hn'.le]
  refine ⟨rows, ?_, h2, fun h hh => (h3 h hh).1, ?_, fun k hk => ?_⟩
  · show generateRandomPhaseAllpass b n 512 draw (decorrelatorGain gain n) = _
    rw [hG]; exact h1
  · rw [sum_const rows _ (1 / (n : ℝ)) fun h hh => by rw [(h3 h hh).2.1, hsq], h2]
    field_simp
  · rw [sum_const rows _ (1 / (n : ℝ)) fun h hh => ?_, h2]
    · field_simp
    · have := (h3 h hh).2.2 k hk
      push_cast at this
      norm_num at this
      norm_num
      rw [this, inv_pow, sq_abs, Real.sq_sqrt hn'.le]

/-- With a configured gain of `dB` decibels, each filter has this gain at each frequency of the grid. -/
theorem configured_gain (b : Build) (sndfile : Bool) (draw : Nat → ℝ) (dB : ℝ) (n : Nat) :
    ∃ rows, lateDecorrelationFilters b sndfile draw ⟨none, .val dB⟩ n = .ok rows ∧ rows.length = n ∧
      ∀ h ∈ rows, h.length = 512 ∧ ∀ k : Nat, k < 512 → ‖response h (2 * Real.pi * k / 512)‖ = (10 : ℝ) ^ (dB / 20) := by
  obtain ⟨rows, h1, h2, h3⟩ := allpass b n 256 (by norm_num) draw (EqDesign.dB2linear dB)
  refine ⟨rows, h1, h2, fun h hh => ⟨(h3 h hh).1, fun k hk => ?_⟩⟩
  have := (h3 h hh).2.2 k hk
  push_cast at this
  norm_num at this
  rw [this, EqDesign.dB2linear, abs_of_pos (Real.rpow_pos_of_pos (by norm_num) _)]
  congr 1
  ring

/-- Filters from a file: the construction fails iff the file is missing, unreadable or has fewer channels than there are
loudspeakers; otherwise the filter of each loudspeaker is the channel of the same number, multiplied by the configured gain, or
by one over the square root of the number of loudspeakers. -/
theorem file_filters (b : Build) (draw : Nat → ℝ) (f : FilterMatrix.File ℝ) (gain : Entry ℝ) (n : Nat) :
    let g := match gain with
      | .val dB => (10 : ℝ) ^ (dB / 20)
      | _ => 1 / Real.sqrt n
    match f with
    | .audio a => if n ≤ a.rows.length then
        ∃ rows, lateDecorrelationFilters b true draw ⟨some f, gain⟩ n = .ok rows ∧ rows.length = n ∧
          ∀ i < n, ∃ h, a.rows[i]? = some h ∧ rows[i]? = some (h.map fun x => g * x)
      else lateDecorrelationFilters b true draw ⟨some f, gain⟩ n = .throw .invalidArgument
    | _ => lateDecorrelationFilters b true draw ⟨some f, gain⟩ n = .throw .invalidArgument := by
  intro g
  have hG : decorrelatorGain gain n = g := by
    cases gain with
    | missing => rfl
    | malformed => rfl
    | val dB =>
      show EqDesign.dB2linear dB = (10 : ℝ) ^ (dB / 20)
      rw [EqDesign.dB2linear]
      congr 1
      ring
  cases f with
  | missing => rfl
  | unreadable => rfl
  | audio a =>
    show if n ≤ a.rows.length then _ else _
    have hL : lateDecorrelationFilters b true draw ⟨some (.audio a), gain⟩ n =
        if a.rows.length < n then .throw .invalidArgument
        else .ok ((a.rows.take n).map fun row => row.map fun x => decorrelatorGain gain n * x) := rfl
    rw [hL, hG]
    by_cases h : n ≤ a.rows.length
    · rw [if_pos h, if_neg (by omega)]
      refine ⟨_, rfl, by simp [h], fun i hi => ⟨a.rows[i]'(by omega), List.getElem?_eq_getElem _, ?_⟩⟩
      rw [List.getElem?_map, List.getElem?_take_of_lt hi, List.getElem?_eq_getElem (by omega : i < a.rows.length)]
      rfl
    · rw [if_neg h, if_pos (by omega)]

/-- The filters do not decorrelate at the ends of the frequency range: whatever is drawn, all of them have the same real
response there. -/
theorem same_at_ends (b : Build) (n L : Nat) (hL : 0 < L) (draw : Nat → ℝ) (g : ℝ) :
    ∃ rows, generateRandomPhaseAllpass b n (2 * L) draw g = .ok rows ∧ ∀ h ∈ rows, response h 0 = g ∧ response h Real.pi = g := by
  refine ⟨_, generate_eq b n L hL draw g, fun h hh => ?_⟩
  obtain ⟨i, _, rfl⟩ := row_of_mem hh
  have hL' : (L : ℝ) ≠ 0 := by positivity
  constructor
  · have := response_row L hL g draw (i * (2 * L / 2 - 1)) 0 (by omega)
    rw [full, if_pos (by omega), freqResponse_zero] at this
    simpa using this
  · have := response_row L hL g draw (i * (2 * L / 2 - 1)) L (by omega)
    have hl := freqResponse_last (2 * L) draw (i * (2 * L / 2 - 1))
    rw [show 2 * L / 2 = L by omega] at hl this
    rw [full, if_pos (by omega), hl, mul_one] at this
    rw [show 2 * Real.pi * (L : ℝ) / ((2 * L : ℕ) : ℝ) = Real.pi by push_cast; field_simp] at this
    rw [show 2 * L / 2 = L by omega]
    exact this

/-- So at these frequencies the loudspeaker signals add up in phase: with the default gain, the sum over the loudspeakers has the
gain `√n` for every random sequence. -/
theorem coherent_at_zero (b : Build) (sndfile : Bool) (draw : Nat → ℝ) (n : Nat) (hn : 0 < n) :
    ∃ rows, lateDecorrelationFilters b sndfile draw ⟨none, .missing⟩ n = .ok rows ∧
      (rows.map fun h => response h 0).sum = (Real.sqrt n : ℂ) := by
  obtain ⟨rows, h1, h2⟩ := same_at_ends b n 256 (by norm_num) draw (1 / Real.sqrt n)
  obtain ⟨rows', h1', h2', _⟩ := allpass b n 256 (by norm_num) draw (1 / Real.sqrt n)
  have hr : rows' = rows := by rw [h1] at h1'; exact (Outcome.ok.inj h1').symm
  subst hr
  refine ⟨rows', h1, ?_⟩
  have hn' : (0 : ℝ) < n := by exact_mod_cast hn
  have : ∀ l : List (List ℝ), (∀ h ∈ l, response h 0 = ((1 / Real.sqrt n : ℝ) : ℂ)) →
      (l.map fun h => response h 0).sum = ((l.length * (1 / Real.sqrt n) : ℝ) : ℂ) := by
    intro l
    induction l with
    | nil => intro _; simp
    | cons a l ih =>
      intro h
      rw [List.map_cons, List.sum_cons, ih fun x hx => h x (by simp [hx]), h a (by simp)]
      push_cast [List.length_cons]
      ring
  rw [this rows' fun h hh => (h2 h hh).1, h2']
  congr 1
  rw [mul_one_div]
  exact Real.div_sqrt

/-- The scaling factors that the IPP wrapper declares are not those of its transforms: the same function with this wrapper would
give filters that are too small by the square root of their length. -/
theorem ipp_too_small (simd ffts : Bool) (n m : Nat) (draw : Nat → ℝ) (g : ℝ) :
    ∃ rows, generateWith ⟨ffts, true, simd⟩ "ipp" n (2 * 2 ^ m) draw g = .ok rows ∧
      ∀ h ∈ rows, ∀ k : Nat, k < 2 * 2 ^ m → ‖response h (2 * Real.pi * k / (2 * 2 ^ m : Nat))‖ = |g| / Real.sqrt (2 * 2 ^ m : Nat) := by
  have hL : 0 < 2 ^ m := by positivity
  have hf : find ⟨ffts, true, simd⟩ false "ipp" = some .ipp := by
    rw [find, show ("ipp" : String).toLower = "ipp" by decide +kernel]
    rfl
  have hc : create ⟨ffts, true, simd⟩ false "ipp" (2 * 2 ^ m) 0 = .ok (ippDft (2 ^ m)) := by
    rw [create, hf]
    show (if 2 ^ Nat.log 2 (2 * 2 ^ m) = 2 * 2 ^ m then _ else _) = _
    rw [if_pos (by rw [show 2 * 2 ^ m = 2 ^ (m + 1) by ring, Nat.log_pow (by norm_num)]), show 2 * 2 ^ m / 2 = 2 ^ m by omega]
  have hrow : ∀ pos, filterRow (ippDft (2 ^ m)) (2 * 2 ^ m) (g / (((2 * 2 ^ m : Nat) : ℝ) * (ippDft (2 ^ m)).is)) draw pos =
      filterRow (dft (2 ^ m)) (2 * 2 ^ m)
        (g / Real.sqrt (2 * 2 ^ m : Nat) / (((2 * 2 ^ m : Nat) : ℝ) * (dft (2 ^ m)).is)) draw pos := by
    intro pos
    rw [filterRow, filterRow]
    apply List.map_congr_left
    intro k _
    show g / (((2 * 2 ^ m : Nat) : ℝ) * 1) * ((dft (2 ^ m)).inv _ k / Real.sqrt (2 * 2 ^ m : Nat)) =
      g / Real.sqrt (2 * 2 ^ m : Nat) / (((2 * 2 ^ m : Nat) : ℝ) * 1) * (dft (2 ^ m)).inv _ k
    ring
  refine ⟨rowsFrom (ippDft (2 ^ m)) (2 * 2 ^ m) (g / (((2 * 2 ^ m : Nat) : ℝ) * (ippDft (2 ^ m)).is)) draw n 0, ?_, fun h hh => ?_⟩
  · rw [generateWith, hc]
    cases n with
    | zero => simp [rowsFrom]
    | succ n => simp only [Nat.add_eq_zero_iff, Nat.one_ne_zero, and_false, if_false]; rw [if_neg (by omega)]
  · intro k hk
    obtain ⟨i, _, rfl⟩ := row_of_mem hh
    rw [hrow, response_row _ hL _ draw _ k hk, norm_mul, full_norm (fun k _ => freqResponse_norm _ _ _ k), mul_one,
      Complex.norm_real, Real.norm_eq_abs, abs_div, abs_of_nonneg (Real.sqrt_nonneg _)]

/-- Nor does the IPP wrapper meet the contract that the convolvers rely on: the product of two transforms, transformed back and
multiplied by the scaling factor of the convolvers, is the cyclic convolution divided by the transform length to the power of
3/2 (for the other two wrappers it is the cyclic convolution). -/
theorem ipp_convolution_scaled (L : Nat) (hL : 0 < L) (x h : Nat → ℝ) (n : Nat) (hn : n < 2 * L) :
    calculateFilterScalingFactor (dft L) (2 * L) * (dft L).inv (fun k => (dft L).fwd x k * (dft L).fwd h k) n = cyc (2 * L) x h n ∧
    calculateFilterScalingFactor (ippDft L) (2 * L) * (ippDft L).inv (fun k => (ippDft L).fwd x k * (ippDft L).fwd h k) n =
      cyc (2 * L) x h n / (((2 * L : Nat) : ℝ) * Real.sqrt (2 * L : Nat)) := by
  have law := isDft_law hL (dft_isDft L)
  have hm := law.inv_mul x h n hn
  have hN : ((2 * L : Nat) : ℝ) ≠ 0 := by positivity
  have hN0 : (0 : ℝ) ≤ ((2 * L : Nat) : ℝ) := by positivity
  have hs : Real.sqrt ((2 * L : Nat) : ℝ) ≠ 0 := by positivity
  have hsq : Real.sqrt ((2 * L : Nat) : ℝ) * Real.sqrt ((2 * L : Nat) : ℝ) = ((2 * L : Nat) : ℝ) := Real.mul_self_sqrt hN0
  have hm' : (dft L).inv (fun k => (dft L).fwd x k * (dft L).fwd h k) n = ((2 * L : Nat) : ℝ) * cyc (2 * L) x h n := by
    rw [hm, show (dft L).is = 1 from rfl, one_mul]
  constructor
  · rw [hm', calculateFilterScalingFactor, show (dft L).fs = 1 from rfl, show (dft L).is = 1 from rfl]
    field_simp
  · have e : (fun k => (ippDft L).fwd x k * (ippDft L).fwd h k) =
        fun k => algebraMap ℝ ℂ (1 / ((2 * L : Nat) : ℝ)) * ((dft L).fwd x k * (dft L).fwd h k) := by
      funext k
      show ((dft L).fwd x k / _) * ((dft L).fwd h k / _) = _
      have hsq' : (Real.sqrt ((2 * L : Nat) : ℝ) : ℂ) * (Real.sqrt ((2 * L : Nat) : ℝ) : ℂ) = (((2 * L : Nat) : ℝ) : ℂ) := by
        exact_mod_cast hsq
      rw [div_mul_div_comm, hsq']
      simp only [Complex.coe_algebraMap, Complex.ofReal_div, Complex.ofReal_one]
      ring
    rw [e]
    show _ * ((dft L).inv _ n / _) = _
    rw [law.inv_smul _ _ n hn, hm', calculateFilterScalingFactor, show (ippDft L).fs = 1 from rfl, show (ippDft L).is = 1 from rfl]
    field_simp

/-! Concrete cases -/

/-- Two filters of length four, with one phase each. -/
example : ∃ rows h, generateRandomPhaseAllpass ⟨false, false, true⟩ 2 (2 * 2) (fun j => j) 1 = .ok rows ∧ rows[1]? = some h ∧
    response h (2 * Real.pi * (1 : Nat) / (2 * 2 : Nat)) = ((1 : ℝ) : ℂ) * Complex.exp (((1 * (2 - 1) + (1 - 1) : Nat) : ℝ) * Complex.I) := by
  simpa using phases_partial ⟨false, false, true⟩ 2 2 (fun j => (j : ℝ)) 1 1 1 (by norm_num) (by norm_num) (by norm_num)

/-- Two loudspeakers and a file with three channels. -/
example : ∃ rows, lateDecorrelationFilters ⟨false, false, true⟩ true (fun _ => 0)
    ⟨some (.audio ⟨2, [[1, 2], [3, 4], [5, 6]]⟩), .val 0⟩ 2 = .ok rows ∧ rows = [[1, 2], [3, 4]] := by
  refine ⟨_, rfl, ?_⟩
  simp [decorrelatorGain, EqDesign.dB2linear]

example : (Entry.malformed : Entry ℝ).get? = none := rfl

end Visr.Decorrelation
