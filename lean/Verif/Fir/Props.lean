import Verif.Fir.Spec
import Mathlib.Algebra.BigOperators.Intervals
import Mathlib.Tactic.Ring
import Mathlib.Tactic.Linarith
import Mathlib.Tactic.Push
import Mathlib.Algebra.BigOperators.Ring.Finset

/-!
# C87: the FIR filter computes the convolution with its spread taps
-/

namespace Visr.Fir
open Visr

variable {K : Type} [CommRing K]

/-- The buffer holds the last 2112 samples, each at its time modulo 2112. -/
def Inv (s : State K) (x : List K) : Prop :=
  (∃ m, x.length = 64 * m ∧ s.pos = 64 * (m % 33)) ∧
    ∀ t : Int, (x.length : Int) - 2112 ≤ t → t < x.length → s.buffer (t % 2112).toNat = sampleAt x t

theorem inv_init : Inv (init : State K) [] := by
  refine ⟨⟨0, rfl, rfl⟩, ?_⟩
  intro t _ h2
  simp only [List.length_nil, Nat.cast_zero] at h2
  unfold sampleAt
  rw [if_neg (by omega)]
  rfl

theorem sampleAt_append_left (x y : List K) {t : Int} (h : t < x.length) : sampleAt (x ++ y) t = sampleAt x t := by
  unfold sampleAt
  split_ifs with h0
  · rw [List.getD_eq_getElem?_getD, List.getD_eq_getElem?_getD, List.getElem?_append_left (by omega)]
  · rfl

theorem sampleAt_append_right (x : List K) (f : Nat → K) {t : Int} (h : (x.length : Int) ≤ t) (h2 : t < x.length + 64) :
    sampleAt (x ++ (List.range 64).map f) t = f (t - x.length).toNat := by
  unfold sampleAt
  rw [if_pos (by omega), List.getD_eq_getElem?_getD, List.getElem?_append_right (by omega), List.getElem?_map,
    List.getElem?_range (by omega)]
  simp only [Option.map_some, Option.getD_some]
  congr 1
  omega

/-- After the input has been stored, the buffer holds the last 2112 samples including the new block. -/
theorem buffer_filled {s : State K} {x : List K} (h : Inv s x) (input : Nat → K) (t : Int)
    (h1 : (x.length : Int) - 2048 ≤ t) (h2 : t < x.length + 64) :
    (if s.pos ≤ (t % 2112).toNat ∧ (t % 2112).toNat < s.pos + blockSize then input ((t % 2112).toNat - s.pos)
      else s.buffer (t % 2112).toNat) = sampleAt (x ++ (List.range 64).map input) t := by
  obtain ⟨⟨m, hm, hp⟩, hb⟩ := h
  by_cases hx : t < x.length
  · rw [sampleAt_append_left _ _ hx, if_neg, hb t (by omega) hx]
    rw [hp]
    unfold blockSize
    omega
  · rw [sampleAt_append_right _ _ (by omega) h2, if_pos]
    · congr 1
      rw [hp]
      omega
    · rw [hp]
      unfold blockSize
      omega

/-- The state in which the outputs are calculated. -/
def filled (s : State K) (input : Nat → K) : State K :=
  { s with buffer := fun m => if s.pos ≤ m ∧ m < s.pos + blockSize then input (m - s.pos) else s.buffer m }

theorem process_of_outputs {s : State K} {input : Nat → K} {out o : Nat → Nat → K} (hp : s.pos + 64 ≤ 2112)
    (ho : outputs (filled s input) 64 0 out = .ok o) : ∃ s', process s input out = .ok (s', o) := by
  refine ⟨{ filled s input with pos := if s.pos + blockSize ≥ bufferSize then 0 else s.pos + blockSize }, ?_⟩
  have hp' : s.pos + blockSize ≤ bufferSize := hp
  have ho' : outputs (filled s input) blockSize 0 out = .ok o := ho
  unfold process
  rw [if_pos hp']
  change (match outputs (filled s input) blockSize 0 out with
    | .ok o => Outcome.ok _
    | .throw e => .throw e
    | .ub => .ub) = _
  rw [ho']
  rfl

theorem inv_process {s s' : State K} {x : List K} (h : Inv s x) (input : Nat → K) (out o : Nat → Nat → K)
    (hs : process s input out = .ok (s', o)) : Inv s' (x ++ (List.range 64).map input) := by
  unfold process at hs
  by_cases hr : s.pos + blockSize ≤ bufferSize
  · rw [if_pos hr] at hs
    dsimp only at hs
    generalize outputs _ blockSize 0 out = w at hs
    cases w with
    | throw e => cases hs
    | ub => cases hs
    | ok w =>
      injection hs with hs
      injection hs with h1 h2
      subst h1
      refine ⟨?_, ?_⟩
      · obtain ⟨⟨m, hm, hp⟩, -⟩ := h
        refine ⟨m + 1, by simp [hm]; ring, ?_⟩
        dsimp only
        rw [hp]
        unfold blockSize bufferSize blockSize
        split_ifs <;> omega
      · intro t h1 h2
        simp only [List.length_append, List.length_map, List.length_range, Nat.cast_add, Nat.cast_ofNat] at h1 h2
        exact buffer_filled h input t (by omega) (by omega)
  · rw [if_neg hr] at hs
    cases hs

theorem inv_step {s s' : State K} {x : List K} (h : Inv s x) (o : Op K) (hs : step s o = .ok s') :
    Inv s' (x ++ signal [o]) := by
  cases o with
  | filters n => injection hs with hs; subst hs; simpa [signal, Inv, setFilters] using h
  | samples n => injection hs with hs; subst hs; simpa [signal, Inv, setSamples] using h
  | upsample n =>
    simp only [step, setUpsample] at hs
    split_ifs at hs <;> injection hs with hs <;> subst hs <;> simpa [signal, Inv] using h
  | load rows columns b =>
    simp only [step, load] at hs
    split_ifs at hs <;> injection hs with hs <;> subst hs <;> simpa [signal, Inv] using h
  | white r =>
    simp only [step, white] at hs
    split at hs
    · injection hs with hs; subst hs; simpa [signal, Inv] using h
    · cases hs
    · cases hs
  | process input out =>
    simp only [step] at hs
    cases hp : process s input out with
    | ok r =>
      rw [hp] at hs
      injection hs with hs
      subst hs
      simpa [signal] using inv_process h input out r.2 hp
    | throw e => rw [hp] at hs; cases hs
    | ub => rw [hp] at hs; cases hs

theorem signal_append (a b : List (Op K)) : signal (a ++ b) = signal a ++ signal b := by
  induction a with
  | nil => rfl
  | cons o os ih =>
    cases o <;> simp [signal, ih]

theorem inv_exec {s s' : State K} {x : List K} (h : Inv s x) (ops : List (Op K)) (hs : exec s ops = .ok s') :
    Inv s' (x ++ signal ops) := by
  induction ops generalizing s x with
  | nil => injection hs with hs; subst hs; simpa [signal] using h
  | cons o os ih =>
    unfold exec at hs
    cases hst : step s o with
    | throw e => rw [hst] at hs; cases hs
    | ub => rw [hst] at hs; cases hs
    | ok s1 =>
      rw [hst] at hs
      have := ih (inv_step h o hst) hs
      rwa [List.append_assoc, ← signal_append] at this

/-- One sample of all filters, in terms of the buffer. -/
theorem taps_ring {s : State K} {u : Nat} (hu : s.upsample = u) (hu2 : u ≤ 2048) :
    ∀ (n j : Nat) (i : Int) (acc : Nat → K), 0 ≤ i → i < 2112 →
    ∃ r, taps s n j i acc = .ok r ∧ ∀ k < s.filters, r k = acc k +
      ∑ l ∈ Finset.range n, s.coeffs k (j + l) * s.buffer ((i - (l : Int) * u) % 2112).toNat
  | 0, j, i, acc, _, _ => ⟨acc, rfl, fun k _ => by simp⟩
  | n + 1, j, i, acc, i0, i1 => by
    unfold taps
    rw [if_neg (by rintro ⟨-, h⟩; exact h ⟨i0, by unfold bufferSize blockSize; push_cast; omega⟩),
      if_neg (by unfold int32; rw [hu]; omega)]
    dsimp only
    have hn : (if i - s.upsample < 0 then i - s.upsample + bufferSize else i - s.upsample) = (i - u) % 2112 := by
      rw [hu]
      unfold bufferSize blockSize
      push_cast
      omega
    rw [hn]
    obtain ⟨r, hr, hspec⟩ := taps_ring hu hu2 n (j + 1) ((i - u) % 2112)
      (fun k => if k < s.filters then acc k + s.coeffs k j * s.buffer i.toNat else acc k)
      (Int.emod_nonneg _ (by norm_num)) (Int.emod_lt_of_pos _ (by norm_num))
    refine ⟨r, hr, fun k hk => ?_⟩
    rw [hspec k hk, if_pos hk, Finset.sum_range_succ']
    have e0 : ((i - ((0 : Nat) : Int) * u) % 2112).toNat = i.toNat := by
      rw [Nat.cast_zero, zero_mul, sub_zero, Int.emod_eq_of_lt i0 i1]
    have : ∀ l : Nat, s.coeffs k (j + 1 + l) * s.buffer (((i - u) % 2112 - (l : Int) * u) % 2112).toNat =
        s.coeffs k (j + (l + 1)) * s.buffer ((i - ((l + 1 : Nat) : Int) * u) % 2112).toNat := by
      intro l
      rw [show j + 1 + l = j + (l + 1) by omega, Int.emod_sub_emod]
      congr 4
      push_cast
      ring
    simp only [this, e0, Nat.add_zero]
    ring

/-- One sample of all filters, in terms of the signal. -/
theorem taps_spec {s : State K} {x : List K} {u : Nat} (hu : s.upsample = u) (hu2 : u ≤ 2048) {t0 : Nat}
    (ht0 : t0 < x.length) (hb : ∀ t : Int, (x.length : Int) - 2112 ≤ t → t < x.length →
      s.buffer (t % 2112).toNat = sampleAt x t) (n : Nat) (hlen : n * u ≤ u ∨ (n - 1) * u + x.length ≤ t0 + 2112)
    (hxl : x.length ≤ t0 + 64) :
    ∃ r, taps s n 0 ((t0 : Int) % 2112) (fun _ => 0) = .ok r ∧ ∀ k < s.filters,
      r k = ∑ l ∈ Finset.range n, s.coeffs k l * sampleAt x ((t0 : Int) - (l : Int) * u) := by
  obtain ⟨r, hr, hspec⟩ := taps_ring hu hu2 n 0 ((t0 : Int) % 2112) (fun _ => 0) (Int.emod_nonneg _ (by norm_num))
    (Int.emod_lt_of_pos _ (by norm_num))
  refine ⟨r, hr, fun k hk => ?_⟩
  rw [hspec k hk, zero_add]
  refine Finset.sum_congr rfl fun l hl => ?_
  rw [Nat.zero_add, Int.emod_sub_emod]
  have hl' := Finset.mem_range.1 hl
  have hlu : l * u + x.length ≤ t0 + 2112 := by
    rcases hlen with h | h
    · have : l * u ≤ n * u := Nat.mul_le_mul_right u (by omega)
      omega
    · have : l * u ≤ (n - 1) * u := Nat.mul_le_mul_right u (by omega)
      omega
  have h0 : (0 : Int) ≤ (l : Int) * u := by positivity
  have h1 : (l : Int) * u + x.length ≤ t0 + 2112 := by exact_mod_cast hlu
  rw [hb _ (by omega) (by omega)]

theorem outputs_spec {s : State K} {f : Nat → Nat → K} (P : ∀ i < 64, ∃ r, taps s s.samples 0 (s.pos + i : Nat) (fun _ => 0) = .ok r ∧
      ∀ k < s.filters, r k = f k i) : ∀ (n i : Nat) (out : Nat → Nat → K), i + n ≤ 64 →
    ∃ o, outputs s n i out = .ok o ∧ ∀ k i', o k i' = if k < s.filters ∧ i ≤ i' ∧ i' < i + n then f k i' else out k i'
  | 0, i, out, _ => ⟨out, rfl, fun k i' => by rw [if_neg (by omega)]⟩
  | n + 1, i, out, hi => by
    obtain ⟨r, hr, hf⟩ := P i (by omega)
    obtain ⟨o, ho, hspec⟩ := outputs_spec P n (i + 1)
      (fun k i' => if k < s.filters ∧ i' = i then r k else out k i') (by omega)
    refine ⟨o, by unfold outputs; rw [hr]; exact ho, fun k i' => ?_⟩
    rw [hspec]
    by_cases hk : k < s.filters
    · by_cases e : i' = i
      · subst e
        rw [if_neg (by omega), if_pos ⟨hk, rfl⟩, if_pos (by omega), hf k hk]
      · by_cases h' : i + 1 ≤ i' ∧ i' < i + 1 + n
        · rw [if_pos ⟨hk, h'⟩, if_pos (by omega)]
        · rw [if_neg (by tauto), if_neg (by tauto), if_neg (by omega)]
    · rw [if_neg (by tauto), if_neg (by tauto), if_neg (by tauto)]

/-- **C87, partial.** After any history of calls, `process()` computes in each output channel the convolution of the whole
input signal with the filter whose taps are `ratio` samples apart, and changes nothing else, if the ratio is not negative
and the last tap is at most 2048 samples back. Missing is the latter condition: it is checked only by
`setUpsampleRatio()`, see `future_sample_heard` and `negative_ratio_undefined`. -/
theorem convolves_partial (ops : List (Op K)) (s : State K) (hs : exec init ops = .ok s) (ratio : Nat)
    (hu : s.upsample = ratio) (hl : (s.samples - 1) * ratio ≤ 2048) (hr : ratio ≤ 2048) (input : Nat → K)
    (out : Nat → Nat → K) :
    ∃ s' o, process s input out = .ok (s', o) ∧
      (∀ k < s.filters, ∀ i < 64, o k i =
        filtered (s.coeffs k) s.samples ratio (signal (ops ++ [.process input out])) ((signal ops).length + i)) ∧
      ∀ k i, ¬ (k < s.filters ∧ i < 64) → o k i = out k i := by
  have hinv : Inv s (signal ops) := by simpa using inv_exec inv_init ops hs
  have hsig : signal (ops ++ [.process input out]) = signal ops ++ (List.range 64).map input := by
    rw [signal_append]; simp [signal]
  obtain ⟨⟨m, hm, hp⟩, hb⟩ := id hinv
  set x := signal ops with hx
  have hxl : (x ++ (List.range 64).map input).length = x.length + 64 := by simp
  let s1 : State K := filled s input
  have P : ∀ i < 64, ∃ r, taps s1 s1.samples 0 (s1.pos + i : Nat) (fun _ => 0) = .ok r ∧ ∀ k < s1.filters,
      r k = filtered (s.coeffs k) s.samples ratio (x ++ (List.range 64).map input) (x.length + i) := by
    intro i hi
    obtain ⟨r, hr, hspec⟩ := taps_spec (s := s1) (x := x ++ (List.range 64).map input) (u := ratio) hu hr
      (t0 := x.length + i) (by omega)
      (by
        intro t h1 h2
        rw [hxl] at h1 h2
        exact buffer_filled hinv input t (by push_cast at h1; omega) (by push_cast at h2; omega))
      s1.samples
      (by
        right
        rw [hxl]
        have : (s1.samples - 1) * ratio ≤ 2048 := hl
        omega) (by omega)
    have hpos : ((x.length + i : Nat) : Int) % 2112 = (s1.pos + i : Nat) := by
      show _ = ((s.pos + i : Nat) : Int)
      rw [hp, hm]
      push_cast
      omega
    rw [hpos] at hr
    refine ⟨r, hr, fun k hk => ?_⟩
    rw [hspec k hk]
    unfold filtered
    push_cast
    rfl
  obtain ⟨o, ho, hspec⟩ := outputs_spec P 64 0 out (by omega)
  obtain ⟨s', hs'⟩ := process_of_outputs (by rw [hp]; omega) ho
  refine ⟨s', o, hs', ?_, ?_⟩
  · intro k hk i hi
    rw [hspec k i, if_pos ⟨hk, by omega, by omega⟩, hsig]
  · intro k i h
    rw [hspec k i, if_neg (by intro h'; exact h ⟨h'.1, by omega⟩)]

/-- C87: the hypotheses of `convolves_partial` are met by two filters with taps five samples apart. -/
example : ∃ s : State ℤ, exec init [.filters 2, .samples 3, .upsample 5, .load 2 3 fun k j => (k : ℤ) + 2 * j] = .ok s ∧
    s.upsample = (5 : Nat) ∧ (s.samples - 1) * 5 ≤ 2048 ∧ s.filters = 2 ∧ s.coeffs 1 2 = 5 := by
  refine ⟨⟨2, 3, fun k j => (k : ℤ) + 2 * j, 5, fun _ => 0, 0⟩, ?_, rfl, by norm_num, rfl, by norm_num⟩
  simp [exec, step, setFilters, setSamples, setUpsample, load, init, int32, maxSamples, blockSize]

/-- C87: a nonnegative ratio which `setUpsampleRatio()` accepts leads to the conditions of `convolves_partial`, if there are
coefficients and their number is not changed afterwards. -/
theorem accepted_ratio_suffices (s s' : State K) (ratio : Nat) (h : setUpsample s ratio = .ok (s', 0))
    (hn : 0 < s.samples) :
    s'.upsample = ratio ∧ (s'.samples - 1) * ratio ≤ 2048 ∧ ratio ≤ 2048 ∧ s'.samples = s.samples ∧
      s'.filters = s.filters ∧ s'.coeffs = s.coeffs := by
  unfold setUpsample at h
  split_ifs at h with h1 h2
  · injection h with h
    injection h with h3 h4
    cases h4
  · injection h with h
    injection h with h3 h4
    subst h3
    have h5 : ratio * s.samples ≤ 2048 := by
      have : ((ratio * s.samples : Nat) : Int) ≤ 2048 := by
        push_cast
        simpa [maxSamples, blockSize] using h2
      exact_mod_cast this
    refine ⟨rfl, ?_, ?_, rfl, rfl, rfl⟩
    · show (s.samples - 1) * ratio ≤ 2048
      calc (s.samples - 1) * ratio ≤ s.samples * ratio := Nat.mul_le_mul_right _ (by omega)
        _ = ratio * s.samples := Nat.mul_comm _ _
        _ ≤ 2048 := h5
    · calc ratio = ratio * 1 := (Nat.mul_one _).symm
        _ ≤ ratio * s.samples := Nat.mul_le_mul_left _ hn
        _ ≤ 2048 := h5

/-- C87: a ratio which is too large is refused without effect. -/
theorem large_ratio_refused (s : State K) (ratio : Int) (h : 2048 < ratio * s.samples) (hi : int32 (ratio * s.samples)) :
    setUpsample s ratio = .ok (s, -1) := by
  unfold setUpsample
  rw [if_neg (by simpa using hi), if_pos (by unfold maxSamples blockSize; push_cast; omega)]

/-- C87: `loadFIRs()` accepts exactly the matrices of the configured size, takes over all of their coefficients, and has no
effect otherwise. -/
theorem load_iff (s : State K) (rows columns : Nat) (b : Nat → Nat → K) :
    (rows = s.filters ∧ columns = s.samples ∧ load s rows columns b = .ok { s with coeffs := b }) ∨
      (¬ (rows = s.filters ∧ columns = s.samples) ∧ load s rows columns b = .throw .invalidArgument ∧
        step s (.load rows columns b) = .ok s) := by
  by_cases h : rows ≠ s.filters ∨ columns ≠ s.samples
  · right
    have e : load s rows columns b = .throw .invalidArgument := by unfold load; rw [if_pos h]
    refine ⟨by tauto, e, ?_⟩
    unfold step
    dsimp only
    rw [e]
  · left
    unfold load
    rw [if_neg h]
    push Not at h
    exact ⟨h.1, h.2, rfl⟩

theorem exec_append (s : State K) (a b : List (Op K)) : exec s (a ++ b) = match exec s a with
    | .ok s' => exec s' b
    | .throw e => .throw e
    | .ub => .ub := by
  induction a generalizing s with
  | nil => rfl
  | cons o os ih =>
    simp only [List.cons_append, exec]
    cases step s o with
    | ok s' => exact ih s'
    | throw e => rfl
    | ub => rfl

/-- C87: after the number of the filters or of their samples has been changed, all filters are silent, whatever was loaded
and processed before, until new coefficients are loaded. -/
theorem silent_after_resize (ops : List (Op K)) (s : State K) (hs : exec init ops = .ok s) (n : Nat) (ratio : Nat)
    (hu : s.upsample = ratio) (hr : ratio ≤ 2048) (input : Nat → K) (out : Nat → Nat → K) :
    ((s.samples - 1) * ratio ≤ 2048 → ∃ s1 s' o, exec init (ops ++ [.filters n]) = .ok s1 ∧
        process s1 input out = .ok (s', o) ∧
        (∀ k < n, ∀ i < 64, o k i = 0) ∧ ∀ k i, n ≤ k → o k i = out k i) ∧
      ((n - 1) * ratio ≤ 2048 → ∃ s1 s' o, exec init (ops ++ [.samples n]) = .ok s1 ∧
        process s1 input out = .ok (s', o) ∧
        (∀ k < s.filters, ∀ i < 64, o k i = 0) ∧ ∀ k i, s.filters ≤ k → o k i = out k i) := by
  constructor
  · intro hl
    have e : exec init (ops ++ [Op.filters n]) = .ok (setFilters s n) := by rw [exec_append, hs]; rfl
    obtain ⟨s', o, h1, h2, h3⟩ := convolves_partial _ _ e ratio hu hl hr input out
    refine ⟨_, s', o, e, h1, fun k hk i hi => ?_, fun k i hk => h3 k i (fun h => by have := h.1; simp only [setFilters] at this; omega)⟩
    rw [h2 k hk i hi]
    unfold filtered
    exact Finset.sum_eq_zero fun j _ => zero_mul _
  · intro hl
    have e : exec init (ops ++ [Op.samples n]) = .ok (setSamples s n) := by rw [exec_append, hs]; rfl
    obtain ⟨s', o, h1, h2, h3⟩ := convolves_partial _ _ e ratio hu hl hr input out
    refine ⟨_, s', o, e, h1, fun k hk i hi => ?_, fun k i hk => h3 k i (fun h => by have := h.1; simp only [setSamples] at this; omega)⟩
    rw [h2 k hk i hi]
    unfold filtered
    exact Finset.sum_eq_zero fun j _ => zero_mul _

example : exec (init : State ℤ) [.filters 2, .samples 3, .load 2 3 (fun _ _ => 1), .process (fun _ => 5) (fun _ _ => 0)] ≠ .ub := by
  intro h
  have e : exec (init : State ℤ) [.filters 2, .samples 3, .load 2 3 (fun _ _ => 1)] =
      .ok { (init : State ℤ) with filters := 2, samples := 3, coeffs := fun _ _ => 1 } := rfl
  have h2 := exec_append (init : State ℤ) [.filters 2, .samples 3, .load 2 3 (fun _ _ => 1)] [.process (fun _ => 5) (fun _ _ => 0)]
  obtain ⟨s', o, h1, -⟩ := convolves_partial _ _ e 1 rfl (by decide) (by decide) (fun _ => 5) (fun _ _ => 0)
  rw [e] at h2
  simp only [exec, step, h1] at h2
  rw [show ([Op.filters 2, .samples 3, .load 2 3 (fun _ _ => 1)] ++ [.process (fun _ => 5) (fun _ _ => 0)] : List (Op ℤ)) =
    [.filters 2, .samples 3, .load 2 3 (fun _ _ => 1), .process (fun _ => 5) (fun _ _ => 0)] from rfl] at h2
  rw [h] at h2
  cases h2

/-! ### Tristate filters -/

theorem whiteRow_spec (r : Nat → Bool × Bool) : ∀ (n j plus minus : Nat) (row : Nat → K), plus + minus ≤ j →
    j + n ≤ 2048 → ∃ row', whiteRow r n j plus minus row = .ok row' ∧
      ∀ l, row' l = if j ≤ l ∧ l < j + n then tristate (r l) else row l
  | 0, j, _, _, row, _, _ => ⟨row, rfl, fun l => by rw [if_neg (by omega)]⟩
  | n + 1, j, plus, minus, row, hc, hl => by
    have key : ∀ (v : K) (p m : Nat), p + m ≤ j + 1 → v = tristate (r j) →
        ∃ row', whiteRow r n (j + 1) p m (Function.update row j v) = .ok row' ∧
          ∀ l, row' l =
            if j ≤ l ∧ l < j + (n + 1) then tristate (r l) else row l := by
      intro v p m hpm hv
      obtain ⟨row', h1, h2⟩ := whiteRow_spec r n (j + 1) p m (Function.update row j v) hpm (by omega)
      refine ⟨row', h1, fun l => ?_⟩
      rw [h2 l]
      by_cases e : l = j
      · subst e
        rw [if_neg (by omega), Function.update_self, if_pos (by omega), hv]
      · rw [Function.update_of_ne e]
        by_cases h : j + 1 ≤ l ∧ l < j + 1 + n
        · rw [if_pos h, if_pos (by omega)]
        · rw [if_neg h, if_neg (by omega)]
    unfold whiteRow
    by_cases h1 : (r j).1 = true
    · rw [if_pos h1]
      by_cases h2 : (r j).2 = true
      · rw [if_pos h2, if_pos (by unfold maxSamples blockSize; omega)]
        exact key 1 _ _ (by omega) (by unfold tristate; rw [if_pos h1, if_pos h2])
      · rw [if_neg h2, if_pos (by unfold maxSamples blockSize; omega)]
        exact key (-1) _ _ (by omega) (by unfold tristate; rw [if_pos h1, if_neg h2])
    · rw [if_neg h1]
      exact key 0 _ _ (by omega) (by unfold tristate; rw [if_neg h1])

theorem whiteRows_spec (r : Nat → Nat → Bool × Bool) (samples : Nat) (hs : samples ≤ 2048) :
    ∀ (n i : Nat) (b : Nat → Nat → K), i + n ≤ 64 → ∃ b', whiteRows r samples n i b = .ok b' ∧
      ∀ k l, b' k l = if (i ≤ k ∧ k < i + n) ∧ l < samples then
        tristate (r k l) else b k l
  | 0, i, b, _ => ⟨b, rfl, fun k l => by rw [if_neg (by omega)]⟩
  | n + 1, i, b, hi => by
    obtain ⟨row, hrow, hspec⟩ := whiteRow_spec (K := K) (r i) samples 0 0 0 (b i) (by omega) (by omega)
    obtain ⟨b', hb', hspec'⟩ := whiteRows_spec r samples hs n (i + 1) (Function.update b i row) (by omega)
    refine ⟨b', by unfold whiteRows; rw [if_pos (by unfold maxFilters; omega), hrow]; exact hb', fun k l => ?_⟩
    rw [hspec' k l]
    by_cases e : k = i
    · subst e
      rw [if_neg (by omega), Function.update_self, hspec l]
      by_cases hl : l < samples
      · rw [if_pos (by omega), if_pos (by omega)]
      · rw [if_neg (by omega), if_neg (by omega)]
    · rw [Function.update_of_ne e]
      by_cases h : (i + 1 ≤ k ∧ k < i + 1 + n) ∧ l < samples
      · rw [if_pos h, if_pos (by omega)]
      · rw [if_neg h, if_neg (by omega)]

/-- C87, tristate filters: for up to 64 filters of up to 2048 coefficients, every coefficient is 0, 1 or -1 as the random
numbers decide. In particular, the filters are not normalised: the energy of a filter is the number of its nonzero
coefficients, although the code calculates a factor which would make it one. -/
theorem white_unnormalised (s : State K) (r : Nat → Nat → Bool × Bool) (hf : s.filters ≤ 64) (hs : s.samples ≤ 2048) :
    ∃ b, white s r = .ok { s with coeffs := b } ∧
      (∀ k < s.filters, ∀ l < s.samples, b k l = tristate (r k l)) ∧
      ∀ k < s.filters, ∑ l ∈ Finset.range s.samples, b k l ^ 2 =
        (((Finset.range s.samples).filter fun l => (r k l).1 = true).card : K) := by
  obtain ⟨b, hb, hspec⟩ := whiteRows_spec r s.samples hs s.filters 0 s.coeffs (by omega)
  have e : ∀ k < s.filters, ∀ l < s.samples, b k l = tristate (r k l) := by
    intro k hk l hl
    rw [hspec k l, if_pos (by omega)]
  refine ⟨b, by unfold white; rw [hb], e, fun k hk => ?_⟩
  rw [Finset.card_filter, Nat.cast_sum]
  refine Finset.sum_congr rfl fun l hl => ?_
  rw [e k hk l (Finset.mem_range.1 hl)]
  unfold tristate
  cases (r k l).1 <;> cases (r k l).2 <;> simp

/-- C87, negation: more than 64 tristate filters are written outside of their arrays, which is not checked. -/
theorem white_undefined (s : State K) (r : Nat → Nat → Bool × Bool) (hf : 64 < s.filters) (hs : s.samples ≤ 2048) :
    white s r = .ub := by
  have key : ∀ (n i : Nat) (b : Nat → Nat → K), i ≤ 64 → 64 < i + n → whiteRows r s.samples n i b = .ub := by
    intro n
    induction n with
    | zero => intro i b h1 h2; omega
    | succ n ih =>
      intro i b h1 h2
      unfold whiteRows
      by_cases hi : i < maxFilters
      · rw [if_pos hi]
        obtain ⟨row, hrow, -⟩ := whiteRow_spec (K := K) (r i) s.samples 0 0 0 (b i) (by omega) (by omega)
        rw [hrow]
        exact ih (i + 1) _ (by unfold maxFilters at hi; omega) (by omega)
      · rw [if_neg hi]
  unfold white
  rw [key s.filters 0 s.coeffs (by omega) (by omega)]

/-! ### Where the code fails -/

/-- A filter of 2050 coefficients of which only the last one is not zero, configured without any error. -/
def long : List (Op ℤ) := [.filters 1, .samples 2050, .load 1 2050 fun _ j => if j = 2049 then 1 else 0]

/-- C87, negation: a filter with 2050 coefficients is accepted; the first output sample then contains the last sample of the
same block, that is a future sample, although the filter is a delay of 2049 samples. -/
theorem future_sample_heard : ∃ s, exec init long = .ok s ∧
    ∃ s' o, process s (fun i => if i = 63 then 1 else 0) (fun _ _ => 0) = .ok (s', o) ∧ o 0 0 = 1 ∧
      filtered (s.coeffs 0) s.samples s.upsample
        (signal (long ++ [.process (fun i => if i = 63 then 1 else 0) fun _ _ => 0])) 0 = 0 := by
  refine ⟨⟨1, 2050, fun _ j => if j = 2049 then 1 else 0, 1, fun _ => 0, 0⟩, rfl, ?_⟩
  let s1 : State ℤ := filled ⟨1, 2050, fun _ j => if j = 2049 then 1 else 0, 1, fun _ => 0, 0⟩
    fun i => if i = 63 then 1 else 0
  have P : ∀ i < 64, ∃ r, taps s1 s1.samples 0 (s1.pos + i : Nat) (fun _ => 0) = .ok r ∧ ∀ k < s1.filters,
      r k = s1.buffer (((i : Int) - 2049) % 2112).toNat := by
    intro i hi
    obtain ⟨r, hr, hspec⟩ := taps_ring (s := s1) (u := 1) rfl (by omega) s1.samples 0 (s1.pos + i : Nat) (fun _ => 0)
      (by omega) (by show ((0 + i : Nat) : Int) < 2112; omega)
    refine ⟨r, hr, fun k hk => ?_⟩
    rw [hspec k hk, Finset.sum_eq_single 2049]
    · have c1 : s1.coeffs k (0 + 2049) = 1 := by simp [s1, filled]
      have c2 : ((s1.pos + i : Nat) : Int) - ((2049 : Nat) : Int) * ((1 : Nat) : Int) = (i : Int) - 2049 := by
        simp [s1, filled]
      rw [c1, c2, one_mul, zero_add]
    · intro l _ hl
      have : s1.coeffs k (0 + l) = 0 := by simp [s1, filled, hl]
      rw [this, zero_mul]
    · intro h
      exact absurd (Finset.mem_range.2 (show 2049 < 2050 by omega)) h
  obtain ⟨o, ho, hspec⟩ := outputs_spec P 64 0 (fun _ _ => 0) (by omega)
  obtain ⟨s', hs'⟩ := process_of_outputs (s := ⟨1, 2050, fun _ j => if j = 2049 then 1 else 0, 1, fun _ => 0, 0⟩)
    (input := fun i => if i = 63 then 1 else 0) (by show 0 + 64 ≤ 2112; omega) ho
  refine ⟨s', o, hs', ?_, ?_⟩
  · rw [hspec 0 0, if_pos ⟨by show 0 < 1; omega, by omega, by omega⟩]
    have : (((0 : Nat) : Int) - 2049) % 2112 = 63 := by norm_num
    rw [this]
    rfl
  · unfold filtered
    refine Finset.sum_eq_zero fun j _ => ?_
    by_cases hj : j = 2049
    · subst hj
      have : sampleAt (signal (long ++ [.process (fun i => if i = 63 then (1 : ℤ) else 0) fun _ _ => 0]))
          (0 - ((2049 : Nat) : Int) * 1) = 0 := by
        unfold sampleAt
        rw [if_neg (by norm_num)]
      exact mul_eq_zero_of_right _ this
    · exact mul_eq_zero_of_left (if_neg hj) _

/-- C87, negation: `setUpsampleRatio()` accepts negative ratios; `process()` then reads outside of its buffer. -/
theorem negative_ratio_undefined : ∃ s : State ℤ, exec init [.filters 1, .samples 2, .upsample (-3000)] = .ok s ∧
    s.upsample = -3000 ∧ process s (fun _ => 0) (fun _ _ => 0) = .ub := by
  refine ⟨⟨1, 2, fun _ _ => 0, -3000, fun _ => 0, 0⟩, ?_, rfl, ?_⟩
  · simp [exec, step, setFilters, setSamples, setUpsample, init, int32, maxSamples, blockSize]
  · simp [process, outputs, taps, bufferSize, blockSize, int32]

end Visr.Fir
