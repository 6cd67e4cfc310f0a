import Verif.KissFft.RealLemmas
import Verif.Convolver.Props
import Verif.TimeFreq.Props

/-!
# C94: the default FFT computes the discrete Fourier transform

In all theorems the tables of twiddle factors are arbitrary beyond the elements that `kiss_fft_alloc` and `kiss_fftr_alloc` fill,
and the previous contents of the output and of the internal buffer are arbitrary.
-/

namespace Visr.KissFft
open Visr Visr.Convolver Finset
open Visr.Decorrelation (rt)

/-- The tables of two plans for transforms of length `2 L`. -/
structure Tables (L : Nat) (twF twI sF sI : Nat → ℂ) : Prop where
  twF : ∀ i < L, twF i = twiddle L false i
  twI : ∀ i < L, twI i = twiddle L true i
  sF : ∀ i < L / 2, sF i = superTwiddle L false i
  sI : ∀ i < L / 2, sI i = superTwiddle L true i

/-- The factors found for a positive length multiply to it: each entry consists of a radix and of what remains, which is one at
the end. -/
theorem factors_complete (n : Nat) (hn : 0 < n) :
    ((factor n).map Prod.fst).prod = n ∧ ((factor n).map Prod.snd).getLast? = some 1 ∧
      ∀ i p m q k, (factor n)[i]? = some (p, m) → (factor n)[i + 1]? = some (q, k) → q * k = m := by
  have key : ∀ (l : List (Nat × Nat)) (n fs p : Nat), l = factorLoop n fs p → 0 < n → 2 ≤ p →
      (l.map Prod.fst).prod = n ∧ (l.map Prod.snd).getLast? = some 1 ∧ (∃ q k r, l = (q, k) :: r ∧ q * k = n) ∧
      ∀ i p m q k, l[i]? = some (p, m) → l[i + 1]? = some (q, k) → q * k = m := by
    intro l
    induction l with
    | nil => intro n fs p h; rw [factorLoop] at h; cases h
    | cons a l ih =>
      intro n fs p h hn hp
      obtain ⟨hd, h1⟩ := nextRadix_dvd n fs p hp
      have hr0 : 0 < nextRadix n fs p := Nat.pos_of_dvd_of_pos hd hn
      have hm : nextRadix n fs p * (n / nextRadix n fs p) = n := Nat.mul_div_cancel' hd
      have hm0 : 0 < n / nextRadix n fs p := Nat.div_pos (Nat.le_of_dvd hn hd) hr0
      rw [factorLoop] at h
      obtain ⟨ha, hl⟩ := List.cons.inj h
      by_cases hne : n / nextRadix n fs p = 1
      · rw [dif_neg (by omega)] at hl
        subst hl ha
        rw [hne] at hm ⊢
        refine ⟨by simpa using hm, by simp, ⟨_, _, _, rfl, hm⟩, ?_⟩
        intro i p m q k _ h2
        simp at h2
      · have hr2 : 2 ≤ nextRadix n fs p := by
          by_contra hlt
          have h3 : nextRadix n fs p = 1 := by omega
          have h4 := h1 h3
          rw [h3, h4] at hne
          exact hne rfl
        rw [dif_pos ⟨by omega, Nat.div_lt_self hn hr2⟩] at hl
        obtain ⟨i1, i2, ⟨q0, k0, r0, i3, i4⟩, i5⟩ := ih _ _ _ hl hm0 hr2
        subst ha
        refine ⟨by rw [List.map_cons, List.prod_cons, i1]; exact hm, ?_, ⟨_, _, _, rfl, hm⟩, ?_⟩
        · rw [List.map_cons, List.getLast?_cons, i2]; rfl
        · intro i p m q k g1 g2
          cases i with
          | zero =>
            rw [i3] at g2
            simp at g1 g2
            obtain ⟨rfl, rfl⟩ := g2
            rw [i4, ← g1.2]
          | succ i => exact i5 i p m q k (by simpa using g1) (by simpa using g2)
  obtain ⟨g1, g2, _, g3⟩ := key (factor n) n (Nat.sqrt n) 4 rfl hn (by norm_num)
  exact ⟨g1, g2, g3⟩

/-- The complex transforms (`kiss_fft`), forward and inverse, for every positive length: mixed radix, with butterflies for the radices
2, 3, 4, 5 and for any other. -/
theorem complex_transform (N : Nat) (hN : 0 < N) (inverse : Bool) (tw : Nat → ℂ) (htw : ∀ i < N, tw i = twiddle N inverse i)
    (f : Nat → ℂ) (k : Nat) (hk : k < N) :
    fft tw inverse N f k = ∑ n ∈ range N, f n *
      Complex.exp ((((if inverse then 1 else -1) * (2 * Real.pi * n * k / N) : ℝ) : ℂ) * Complex.I) := by
  rw [fft_eq hN (s := inverse) (fun i hi => by rw [htw i hi, twiddle_eq]) f k hk]
  apply Finset.sum_congr rfl
  intro n _
  rw [rt]
  congr 4
  cases inverse <;> simp [sgn] <;> ring

/-- The wrapper meets the contract that the theorems about the convolvers and the time-frequency components assume of an FFT: the
forward transform gives the bins `0, …, L` of the discrete Fourier transform, and the inverse transform evaluates the inverse of
real sequences, for every even length. -/
theorem wrapper_isDft (L : Nat) (hL : 0 < L) (twF twI sF sI : Nat → ℂ) (h : Tables L twF twI sF sI) (freq tmp : Nat → ℂ) :
    IsDft L (wrapper L twF twI sF sI freq tmp) where
  fs := rfl
  is := one_ne_zero
  fwd := by
    intro x k hk
    show fftr twF sF L x freq k = _
    rw [fftr_eq hL h.twF h.sF x freq k hk, bins]
    apply Finset.sum_congr rfl
    intro n _
    rw [rt]
    congr 2
    push_cast
    ring
  inv := by
    intro X n hn
    show fftri twI sI L X tmp n = 1 * _
    rw [fftri_eq hL h.twI h.sI X tmp n hn, samples, one_mul]

/-- The forward transform writes the bins `0, …, L` and nothing behind them. -/
theorem forward_range (L : Nat) (twF sF : Nat → ℂ) (x : Nat → ℝ) (freq : Nat → ℂ) (k : Nat) (hk : L < k) :
    fftr twF sF L x freq k = freq k := by
  rw [fftr]
  generalize fft twF false L (fun n => ⟨x (2 * n), x (2 * n + 1)⟩) = tmp
  have : ∀ t ≤ L / 2, ∀ f0 : Nat → ℂ, (List.range t).foldl (fun freq k => fftrStep sF L tmp freq (k + 1)) f0 k = f0 k := by
    intro t
    induction t with
    | zero => intro _ _; rfl
    | succ t ih =>
      intro ht f0
      rw [List.range_succ, List.foldl_append, List.foldl_cons, List.foldl_nil, fftrStep]
      rw [Function.update_of_ne (by omega), Function.update_of_ne (by omega), ih (by omega)]
  rw [this _ le_rfl, Function.update_of_ne (by omega), Function.update_of_ne (by omega)]

/-- Transforming forward and back multiplies each sample by the transform length. -/
theorem round_trip (L : Nat) (hL : 0 < L) (twF twI sF sI : Nat → ℂ) (h : Tables L twF twI sF sI) (freq tmp : Nat → ℂ)
    (x : Nat → ℝ) (n : Nat) (hn : n < 2 * L) :
    fftri twI sI L (fftr twF sF L x freq) tmp n = ((2 * L : Nat) : ℝ) * x n := by
  have := (TimeFreq.isDft_inverts hL (wrapper_isDft L hL twF twI sF sI h freq tmp)).inv_fwd x n hn
  simpa [wrapper] using this

/-- The convolver with the default FFT, without any assumption about the FFT. -/
theorem convolver_default_fft {d : Dims} (hb : 0 < d.block) (hm : 0 < d.maxLen) {twF twI sF sI : Nat → ℂ}
    (h : Tables d.block twF twI sF sI) (freq tmp : Nat → ℂ)
    (routings : List (Convolver.Entry ℝ)) (rows cols : Nat) (m : Nat → Nat → ℝ) (align : Nat) {s : Multi ℝ ℂ}
    (hs : Multi.create d.inputs d.outputs d.block d.maxLen d.maxRoutings d.entries routings rows cols m align
      (wrapper d.block twF twI sF sI freq tmp) = .ok s)
    (past : List (Op ℝ)) (op : Op ℝ) (hpast : ∀ o ∈ past, OpOK o) (hop : OpOK op) :
    (Multi.step (final Multi.step s past) op).2 =
      (Sys.step d (past.foldl (fun t o => (Sys.step d t o).1) (Sys.init d routings rows cols m)) op).2 :=
  convolver_stream hb hm (wrapper_isDft _ hb _ _ _ _ h _ _) routings rows cols m align hs past op hpast hop

/-- The random-phase filters (C93) computed with this wrapper are those computed with the discrete Fourier transform. -/
theorem random_phase_filters (L : Nat) (hL : 0 < L) (twF twI sF sI : Nat → ℂ) (h : Tables L twF twI sF sI) (freq tmp : Nat → ℂ)
    (scale : ℝ) (draw : Nat → ℝ) (pos : Nat) :
    Decorrelation.filterRow (wrapper L twF twI sF sI freq tmp) (2 * L) scale draw pos =
      Decorrelation.filterRow (dft L) (2 * L) scale draw pos := by
  apply List.map_congr_left
  intro n hn
  rw [(wrapper_isDft L hL twF twI sF sI h freq tmp).inv _ n (List.mem_range.mp hn),
    (dft_isDft L).inv _ n (List.mem_range.mp hn)]
  rfl

/-! Concrete cases -/

/-- The tables exist for every length. -/
theorem tables_exist (L : Nat) : Tables L (twiddle L false) (twiddle L true) (superTwiddle L false) (superTwiddle L true) :=
  ⟨fun _ _ => rfl, fun _ _ => rfl, fun _ _ => rfl, fun _ _ => rfl⟩

/-- All butterflies are used for this length. -/
example : factor 840 = [(4, 210), (2, 105), (3, 35), (5, 7), (7, 1)] := by decide +kernel

/-- Beyond the tables there may be anything: here the length is 6, and the tables have 3 elements and 1 element. -/
example : Tables 3 (fun i => if i < 3 then twiddle 3 false i else 17) (fun i => if i < 3 then twiddle 3 true i else 17)
    (fun i => if i < 1 then superTwiddle 3 false i else 17) (fun i => if i < 1 then superTwiddle 3 true i else 17) :=
  ⟨fun _ h => if_pos h, fun _ h => if_pos h, fun _ h => if_pos h, fun _ h => if_pos h⟩

example : ∃ s, Multi.create 1 1 4 5 1 1 [] 1 5 (fun _ _ => (1 : ℝ)) 1
    (wrapper 4 (twiddle 4 false) (twiddle 4 true) (superTwiddle 4 false) (superTwiddle 4 true) (fun _ => 0) fun _ => 0) = .ok s :=
  ((convolver_create (d := ⟨1, 1, 4, 5, 1, 1⟩) (by norm_num) (by norm_num)
    (wrapper_isDft 4 (by norm_num) _ _ _ _ (tables_exist 4) _ _) [] 1 5 (fun _ _ => 1) 1).1).mpr
    ⟨by norm_num, by norm_num, rfl⟩

end Visr.KissFft
