import Verif.Convolver.Dft
import Verif.Convolver.Spec
import Verif.CircularBuffer.Lemmas
import Mathlib.Tactic.FieldSimp
import Mathlib.Tactic.Ring

/-! # Lemmas for the convolvers -/

set_option linter.unusedSectionVars false

namespace Visr.Convolver
open Visr Visr.CircularBuffer

variable {K F : Type*} [Field K] [Field F] [Algebra K F]

theorem getD_zero_of_le (l : List K) (i : Nat) (h : l.length ≤ i) : l.getD i 0 = 0 := by
  rw [List.getD_eq_getElem?_getD, List.getElem?_eq_none h]; rfl

theorem fwdInto_same (fft : Fft K F) (L : Nat) (x : Nat → K) (row : Nat → F) (col k : Nat) (hk : k ≤ L) :
    fwdInto fft (2 * L) x row col (col + k) = fft.fwd x k := by
  unfold fwdInto
  rw [if_pos ⟨by omega, by omega⟩, show col + k - col = k by omega]

theorem fwdInto_other (fft : Fft K F) (L padded : Nat) (hp : L < padded) (x : Nat → K) (row : Nat → F) (p q k : Nat)
    (hk : k ≤ L) (hpq : p ≠ q) :
    fwdInto fft (2 * L) x row (p * padded) (q * padded + k) = row (q * padded + k) := by
  unfold fwdInto
  rw [if_neg]
  rintro ⟨h1, h2⟩
  rw [show 2 * L / 2 = L by omega] at h2
  rcases Nat.lt_or_gt_of_ne hpq with h | h
  · have : (p + 1) * padded ≤ q * padded := Nat.mul_le_mul_right _ h
    rw [Nat.add_mul, Nat.one_mul] at this
    omega
  · have : (q + 1) * padded ≤ p * padded := Nat.mul_le_mul_right _ h
    rw [Nat.add_mul, Nat.one_mul] at this
    omega

/-- Fixed relations between the data members. -/
structure Shape (c : Core K F) (L : Nat) : Prop where
  pos : 0 < L
  block : c.block = L
  dft : c.dft = 2 * L
  padded : L < c.padded
  parts : c.parts * L ≥ c.maxLen
  scale : c.fft.is * (2 * L : Nat) * c.scale = 1
  law : Law L c.fft

/-- Time-domain samples of partition `p` of an impulse response. -/
def part (L : Nat) (scale : K) (h : List K) (p : Nat) : Nat → K := fun i => if i < L then scale * h.getD (p * L + i) 0 else 0

/-- A row of the filter matrix holds the transformed partitions of an impulse response. -/
def RowHolds (c : Core K F) (L : Nat) (row : Nat → F) (h : List K) : Prop :=
  ∀ p < c.parts, ∀ k ≤ L, row (p * c.padded + k) = c.fft.fwd (part L c.scale h p) k

theorem rowHolds_zero {c : Core K F} {L : Nat} (hs : Shape c L) : RowHolds c L (fun _ => 0) [] := by
  intro p _ k hk
  rw [← hs.law.zero k hk]
  apply hs.law.fwd_congr _ _ _ k hk
  intro i _
  simp [part]

theorem transformLoop_holds {c : Core K F} {L : Nat} (hs : Shape c L) (ir : List K) (row : Nat → F) (n : Nat) :
    ∀ p < n, ∀ k ≤ L, transformLoop c ir row n (p * c.padded + k) = c.fft.fwd (part L c.scale ir p) k := by
  induction n with
  | zero => intro p hp; omega
  | succ n ih =>
    intro p hp k hk
    simp only [transformLoop, hs.dft, hs.block]
    by_cases hpn : p = n
    · subst hpn
      rw [fwdInto_same _ _ _ _ _ _ hk]
      apply hs.law.fwd_congr _ _ _ k hk
      intro i _
      have e1 : (p + 1) * L = p * L + L := by rw [Nat.add_mul, Nat.one_mul]
      simp only [part, e1]
      by_cases hi : i < min (p * L + L) ir.length - p * L
      · rw [if_pos hi, if_pos (by omega)]
      · rw [if_neg hi]
        by_cases hL : i < L
        · rw [if_pos hL, getD_zero_of_le _ _ (by omega), mul_zero]
        · rw [if_neg hL]
    · rw [fwdInto_other _ _ _ hs.padded _ _ _ _ _ hk (Ne.symm hpn)]
      exact ih p (by omega) k hk

/-- The core convolver holds the impulse responses `h` and has processed the streams `xs`, each of `time` samples. -/
structure CoreRep (c : Core K F) (L : Nat) (h xs : Nat → List K) (time : Nat) : Prop where
  shape : Shape c L
  filt : ∀ f < c.entries, RowHolds c L (c.filt f) (h f)
  hlen : ∀ f, (h f).length ≤ c.maxLen
  buf : Rep c.buf xs
  bufChannels : c.buf.channels = c.inputs
  bufLength : c.buf.length = 2 * L
  time : ∀ ch, (xs ch).length = time
  offset : 0 < c.parts → c.offset < c.parts
  fdl : ∀ ch < c.inputs, ∀ j < c.parts, ∀ k ≤ L,
    c.fdl ch (c.fdlColumn j + k) = c.fft.fwd (fun i => past (xs ch) ((j + 2) * L - i)) k

theorem coreRep_setFilt {c : Core K F} {L : Nat} {h xs : Nat → List K} {time : Nat} (hr : CoreRep c L h xs time)
    (filt : Nat → Nat → F) (h' : Nat → List K) (hf : ∀ f < c.entries, RowHolds c L (filt f) (h' f))
    (hl : ∀ f, (h' f).length ≤ c.maxLen) : CoreRep { c with filt := filt } L h' xs time := by
  obtain ⟨⟨a1, a2, a3, a4, a5, a6, a7⟩, b, b', c1, c2, c3, d, e, f⟩ := hr
  exact ⟨⟨a1, a2, a3, a4, a5, a6, a7⟩, hf, hl, c1, c2, c3, d, e, f⟩

theorem coreRep_clear {c : Core K F} {L : Nat} {h xs : Nat → List K} {time : Nat} (hr : CoreRep c L h xs time) :
    CoreRep c.clearFilters L (fun _ => []) xs time :=
  coreRep_setFilt hr _ _ (fun _ _ => rowHolds_zero hr.shape) (by simp)

theorem coreRep_setImpulseResponse {c : Core K F} {L : Nat} {h xs : Nat → List K} {time : Nat}
    (hr : CoreRep c L h xs time) (ir : List K) (idx : Nat) :
    (¬ (idx < c.entries ∧ ir.length ≤ c.maxLen) → c.setImpulseResponse ir idx = .throw .invalidArgument) ∧
    (idx < c.entries ∧ ir.length ≤ c.maxLen → ∃ row, c.setImpulseResponse ir idx =
        .ok { c with filt := fun f => if f = idx then row else c.filt f } ∧
      CoreRep { c with filt := fun f => if f = idx then row else c.filt f } L (fun f => if f = idx then ir else h f)
        xs time) := by
  unfold Core.setImpulseResponse Core.transformImpulseResponse
  constructor
  · intro hn
    by_cases hi : idx < c.entries
    · rw [if_neg (by omega), if_pos (show ir.length > c.maxLen by by_contra hc; exact hn ⟨hi, by omega⟩)]
    · rw [if_pos (by omega)]
  · rintro ⟨h1, h2⟩
    rw [if_neg (by omega), if_neg (by omega)]
    refine ⟨_, rfl, coreRep_setFilt hr _ _ ?_ ?_⟩
    · intro f hf
      by_cases hfi : f = idx
      · subst hfi
        simp only [if_true]
        exact transformLoop_holds hr.shape ir _ c.parts
      · simp only [if_neg hfi]; exact hr.filt f hf
    · intro f
      by_cases hfi : f = idx
      · simp only [if_pos hfi]; exact h2
      · simp only [if_neg hfi]; exact hr.hlen f

theorem initLoop_ok {c : Core K F} {L : Nat} {xs : Nat → List K} {time : Nat}
    (hr : CoreRep c L (fun _ => []) xs time) (cols : Nat) (m : Nat → Nat → K) (hc : cols ≤ c.maxLen) (n : Nat)
    (hn : n ≤ c.entries) :
    ∃ filt, initLoop c cols m n = .ok { c with filt := filt } ∧
      CoreRep { c with filt := filt } L (rowFilters n cols m) xs time := by
  induction n with
  | zero =>
    refine ⟨c.filt, rfl, ?_⟩
    have : rowFilters 0 cols m = fun _ => [] := by funext f; simp [rowFilters]
    rw [this]; exact hr
  | succ n ih =>
    obtain ⟨filt, h1, h2⟩ := ih (by omega)
    obtain ⟨row, g1, g2⟩ := (coreRep_setImpulseResponse h2 ((List.range cols).map (m n)) n).2
      ⟨by show n < c.entries; omega, by simpa using hc⟩
    refine ⟨_, by rw [initLoop, h1]; exact g1, ?_⟩
    have : rowFilters (n + 1) cols m =
        fun f => if f = n then (List.range cols).map (m n) else rowFilters n cols m f := by
      funext f
      simp only [rowFilters]
      by_cases hf : f = n
      · subst hf; simp
      · have : f < n + 1 ↔ f < n := by omega
        simp [hf, this]
    rw [this]; exact g2

theorem coreRep_initFilters {c : Core K F} {L : Nat} {h xs : Nat → List K} {time : Nat}
    (hr : CoreRep c L h xs time) (rows cols : Nat) (m : Nat → Nat → K) :
    (¬ (rows ≤ c.entries ∧ cols ≤ c.maxLen) → c.initFilters rows cols m = (c.clearFilters, .throw .invalidArgument)) ∧
    (rows ≤ c.entries ∧ cols ≤ c.maxLen → ∃ filt, c.initFilters rows cols m = ({ c with filt := filt }, .ok ()) ∧
      CoreRep { c with filt := filt } L (rowFilters rows cols m) xs time) := by
  unfold Core.initFilters
  constructor
  · intro hn
    by_cases hi : rows ≤ c.entries
    · simp only []
      rw [if_neg (by omega), if_pos (show cols > c.maxLen by by_contra hc; exact hn ⟨hi, by omega⟩)]
    · simp only []
      rw [if_pos (by omega)]
  · rintro ⟨h1, h2⟩
    simp only []
    rw [if_neg (by omega), if_neg (by omega)]
    obtain ⟨filt, g1, g2⟩ := initLoop_ok (coreRep_clear hr) cols m h2 rows h1
    rw [g1]
    refine ⟨_, rfl, ?_⟩
    refine coreRep_setFilt hr _ _ ?_ (fun f => g2.hlen f)
    intro f hf
    by_cases hfr : rows ≤ f
    · simp only [if_pos (And.intro hfr hf)]
      have : rowFilters rows cols m f = [] := by unfold rowFilters; rw [if_neg (by omega)]
      rw [this]
      exact rowHolds_zero hr.shape
    · simp only [if_neg (show ¬ (rows ≤ f ∧ f < c.entries) by omega)]
      exact g2.filt f hf

/-! ### Inputs -/

theorem past_append_block (s t : List K) (d : Nat) (hd : 1 ≤ d) : past (s ++ t) (d + t.length) = past s d := by
  unfold past
  rw [List.length_append]
  by_cases h : d ≤ s.length
  · rw [if_pos (by omega), if_pos h, show s.length + t.length - (d + t.length) = s.length - d by omega]
    rw [List.getD_eq_getElem?_getD, List.getD_eq_getElem?_getD, List.getElem?_append_left (by omega)]
  · rw [if_neg (by omega), if_neg h]

theorem transformInputs_ok {c : Core K F} {L : Nat} {xs : Nat → List K} (hs : Shape c L) (hb : Rep c.buf xs)
    (hl : c.buf.length = 2 * L) (n : Nat) (hn : n ≤ c.buf.channels) :
    ∃ fdl, transformInputs c n = .ok fdl ∧ ∀ ch, (n ≤ ch → fdl ch = c.fdl ch) ∧ (ch < n →
      fdl ch = fwdInto c.fft (2 * L) (fun j => if j < 2 * L then past (xs ch) (2 * L - j) else 0) (c.fdl ch)
        (c.fdlColumn 0)) := by
  induction n with
  | zero => exact ⟨c.fdl, rfl, fun ch => ⟨fun _ => rfl, fun h => absurd h (by omega)⟩⟩
  | succ n ih =>
    obtain ⟨fdl, h1, h2⟩ := ih (by omega)
    have hread := rep_read hb (ch := n) (d := 2 * L) (n := 2 * L) (by omega) (le_refl _) (by omega)
    simp only [transformInputs, h1, hs.dft, hread]
    refine ⟨_, rfl, fun ch => ⟨fun hch => ?_, fun hch => ?_⟩⟩
    · rw [if_neg (by omega)]; exact (h2 ch).1 (by omega)
    · by_cases hcn : ch = n
      · subst hcn
        rw [if_pos rfl, (h2 ch).1 (le_refl _)]
        congr 1
        funext j
        rw [List.getD_eq_getElem?_getD, List.getElem?_map]
        by_cases hj : j < 2 * L
        · rw [List.getElem?_range hj, if_pos hj]; rfl
        · rw [List.getElem?_eq_none (by simp; omega), if_neg hj]; rfl
      · rw [if_neg hcn]; exact (h2 ch).2 (by omega)

theorem coreRep_processInputs {c : Core K F} {L : Nat} {h xs : Nat → List K} {time : Nat}
    (hr : CoreRep c L h xs time) (hp : 0 < c.parts) (data : Nat → Nat → K) :
    ∃ c', c.processInputs data = .ok c' ∧
      CoreRep c' L h (fun ch => xs ch ++ (List.range L).map (data ch)) (time + L) ∧
      c'.inputs = c.inputs ∧ c'.outputs = c.outputs ∧ c'.entries = c.entries ∧ c'.maxLen = c.maxLen ∧
      c'.parts = c.parts := by
  obtain ⟨buf', hw, hb', hbc, hbl⟩ := rep_write hr.buf data (n := L) (by rw [hr.bufLength]; omega)
  unfold Core.processInputs
  have hw' : c.buf.write data c.inputs c.block = .ok buf' := by rw [hr.shape.block, ← hr.bufChannels]; exact hw
  rw [hw']
  simp only [Core.advanceFDL]
  rw [if_neg (by omega)]
  simp only []
  obtain ⟨c1, hc1⟩ : ∃ c1 : Core K F, c1 = { c with buf := buf', offset := (c.offset + c.parts - 1) % c.parts } := ⟨_, rfl⟩
  have hs := hr.shape
  have hs1 : Shape c1 L := by
    rw [hc1]; exact ⟨hs.pos, hs.block, hs.dft, hs.padded, hs.parts, hs.scale, hs.law⟩
  have hb1 : Rep c1.buf (fun ch => xs ch ++ (List.range L).map (data ch)) := by rw [hc1]; exact hb'
  have hl1 : c1.buf.length = 2 * L := by rw [hc1]; exact hbl.trans hr.bufLength
  have hch1 : c1.buf.channels = c1.inputs := by rw [hc1]; exact hbc.trans hr.bufChannels
  obtain ⟨fdl, h1, h2⟩ := transformInputs_ok hs1 hb1 hl1 c1.inputs (by omega)
  have h1' := h1
  rw [hc1] at h1'
  rw [h1']
  simp only []
  refine ⟨{ c1 with fdl := fdl }, by rw [hc1], ⟨⟨hs1.pos, hs1.block, hs1.dft, hs1.padded, hs1.parts, hs1.scale, hs1.law⟩, ?_, ?_, hb1, hch1, hl1,
    ?_, ?_, ?_⟩, by rw [hc1], by rw [hc1], by rw [hc1], by rw [hc1], by rw [hc1]⟩
  · rw [hc1]; exact hr.filt
  · rw [hc1]; exact hr.hlen
  · intro ch; simp [hr.time ch]
  · intro _
    rw [hc1]
    exact Nat.mod_lt _ hp
  · intro ch hch j hj k hk
    have hch : ch < c1.inputs := hch
    have hj : j < c1.parts := hj
    show fdl ch (c1.fdlColumn j + k) = c1.fft.fwd _ k
    rw [(h2 ch).2 hch]
    have hoff := hr.offset hp
    have hparts : c1.parts = c.parts := by rw [hc1]
    have hfft : c1.fft = c.fft := by rw [hc1]
    have hpad : c1.padded = c.padded := by rw [hc1]
    have hj' : j < c.parts := by omega
    have hcol : ∀ i, c1.fdlColumn i = (((c.offset + c.parts - 1) % c.parts + i) % c.parts) * c.padded := by
      intro i; rw [hc1]; rfl
    rcases Nat.eq_zero_or_pos j with rfl | hjpos
    · rw [fwdInto_same _ _ _ _ _ _ hk]
      apply hs1.law.fwd_congr _ _ _ k hk
      intro i hi
      rw [if_pos hi, Nat.zero_add]
    · have e1 : ((c.offset + c.parts - 1) % c.parts + j) % c.parts = (c.offset + (j - 1)) % c.parts := by
        rw [Nat.mod_add_mod, show c.offset + c.parts - 1 + j = c.offset + (j - 1) + c.parts by omega, Nat.add_mod_right]
      have e0 : ((c.offset + c.parts - 1) % c.parts + 0) % c.parts = (c.offset + c.parts - 1) % c.parts := by
        rw [Nat.add_zero, Nat.mod_mod]
      have hne : (c.offset + c.parts - 1) % c.parts ≠ (c.offset + (j - 1)) % c.parts := by
        intro heq
        have := Nat.sub_mod_eq_zero_of_mod_eq heq
        rw [show c.offset + c.parts - 1 - (c.offset + (j - 1)) = c.parts - j by omega, Nat.mod_eq_of_lt (by omega)] at this
        omega
      rw [hcol 0, hcol j, e1, e0, ← hpad, fwdInto_other _ _ _ hs1.padded _ _ _ _ _ hk hne]
      have hold := hr.fdl ch (by rw [hc1] at hch; exact hch) (j - 1) (by omega) k hk
      unfold Core.fdlColumn at hold
      rw [hpad, show c1.fdl ch = c.fdl ch by rw [hc1], hold, hfft]
      apply hs.law.fwd_congr _ _ _ k hk
      intro i hi
      have hlen : ((List.range L).map (data ch)).length = L := by simp
      have hmul : (j + 2) * L = (j - 1 + 2) * L + L := by
        rw [← Nat.succ_mul, show (j - 1 + 2).succ = j + 2 by omega]
      have hge : 2 * L ≤ (j - 1 + 2) * L := Nat.mul_le_mul_right _ (by omega)
      have := past_append_block (xs ch) ((List.range L).map (data ch)) ((j - 1 + 2) * L - i) (by omega)
      rw [hlen] at this
      rw [← this]
      congr 1
      omega

/-! ### Filters -/

/-- The inverse transform of `X` is the sequence `v`. -/
def Sem (fft : Fft K F) (L : Nat) (X : Nat → F) (v : Nat → K) : Prop := ∀ n < 2 * L, fft.inv X n = v n

theorem accLoop_sem {c : Core K F} {L : Nat} {h xs : Nat → List K} {time : Nat} (hr : CoreRep c L h xs time)
    (i f : Nat) (hi : i < c.inputs) (hf : f < c.entries) (p : Nat) (hp : p < c.parts) :
    Sem c.fft L (accLoop c i f p) (fun n => ∑ q ∈ Finset.range (p + 1), c.fft.is * (2 * L : Nat) *
      cyc (2 * L) (fun j => past (xs i) ((q + 2) * L - j)) (part L c.scale (h f) q) n) := by
  have hlaw := hr.shape.law
  induction p with
  | zero =>
    intro n hn
    simp only [Nat.zero_add, Finset.sum_range_one]
    rw [← hlaw.inv_mul _ _ n hn]
    apply hlaw.inv_congr _ _ _ n hn
    intro k hk
    simp only [accLoop]
    rw [hr.fdl i hi 0 hp k hk, hr.filt f hf 0 hp k hk]
  | succ p ih =>
    intro n hn
    have ih' := ih (by omega) n hn
    beta_reduce at ih' ⊢
    rw [Finset.sum_range_succ, ← ih', ← hlaw.inv_mul _ _ n hn, ← hlaw.inv_add _ _ n hn]
    apply hlaw.inv_congr _ _ _ n hn
    intro k hk
    simp only [accLoop]
    rw [hr.fdl i hi (p + 1) hp k hk, hr.filt f hf (p + 1) hp k hk]

/-- The second half of a cyclic convolution with a sequence that vanishes from `L` on is a linear convolution. -/
theorem cyc_half (L : Nat) (x g : Nat → K) (i : Nat) (hi : i < L) (hg : ∀ m, L ≤ m → g m = 0) :
    cyc (2 * L) x g (L + i) = ∑ m ∈ Finset.range L, g m * x (L + i - m) := by
  unfold cyc
  rw [show 2 * L = L + L by omega, Finset.sum_range_add, Finset.sum_eq_zero (s := Finset.range L)
    (f := fun m => g (L + m) * x ((L + i + (L + L) - (L + m)) % (L + L))), add_zero]
  · apply Finset.sum_congr rfl
    intro m hm
    have hm := Finset.mem_range.mp hm
    rw [show L + i + (L + L) - m = L + i - m + (L + L) by omega, Nat.add_mod_right, Nat.mod_eq_of_lt (by omega)]
  · intro m _
    rw [hg (L + m) (by omega), zero_mul]

theorem sum_partitions (P L : Nat) (φ : Nat → K) :
    ∑ p ∈ Finset.range P, ∑ m ∈ Finset.range L, φ (p * L + m) = ∑ t ∈ Finset.range (P * L), φ t := by
  induction P with
  | zero => simp
  | succ P ih => rw [Finset.sum_range_succ, ih, Nat.succ_mul, Finset.sum_range_add]

theorem partitions_conv {c : Core K F} {L : Nat} (hs : Shape c L) (h xs : List K) (hlen : h.length ≤ c.maxLen)
    (time : Nat) (ht : xs.length = time + L) (i : Nat) (hi : i < L) :
    ∑ q ∈ Finset.range c.parts, c.fft.is * (2 * L : Nat) *
      cyc (2 * L) (fun j => past xs ((q + 2) * L - j)) (part L c.scale h q) (L + i) = conv h xs (time + i) := by
  have step1 : ∀ q, c.fft.is * (2 * L : Nat) *
      cyc (2 * L) (fun j => past xs ((q + 2) * L - j)) (part L c.scale h q) (L + i) =
      ∑ m ∈ Finset.range L, (fun t => h.getD t 0 * past xs (t + L - i)) (q * L + m) := by
    intro q
    rw [cyc_half L _ _ i hi (by intro m hm; simp only [part]; rw [if_neg (by omega)]), Finset.mul_sum]
    apply Finset.sum_congr rfl
    intro m hm
    have hm := Finset.mem_range.mp hm
    simp only [part]
    rw [if_pos hm]
    have e : (q + 2) * L - (L + i - m) = q * L + m + L - i := by
      have : (q + 2) * L = q * L + 2 * L := by rw [Nat.add_mul]
      omega
    rw [e, ← mul_assoc, ← mul_assoc, hs.scale, one_mul]
  rw [Finset.sum_congr rfl (fun q _ => step1 q), sum_partitions c.parts L (fun t => h.getD t 0 * past xs (t + L - i))]
  have hle : h.length ≤ c.parts * L := hlen.trans hs.parts
  obtain ⟨r, hr⟩ := Nat.exists_eq_add_of_le hle
  unfold conv
  rw [hr, Finset.sum_range_add, Finset.sum_eq_zero (s := Finset.range r), add_zero]
  · apply Finset.sum_congr rfl
    intro t _
    congr 1
    unfold past
    rw [ht]
    by_cases h1 : t ≤ time + i
    · rw [if_pos (by omega), if_pos h1, show time + L - (t + L - i) = time + i - t by omega]
    · rw [if_neg (by omega), if_neg h1]
  · intro t _
    rw [getD_zero_of_le _ _ (by omega), zero_mul]

/-- The complete accumulation for an input and a filter, in the time domain. -/
theorem acc_conv {c : Core K F} {L : Nat} {h xs : Nat → List K} {time : Nat} (hr : CoreRep c L h xs (time + L))
    (i f : Nat) (hi : i < c.inputs) (hf : f < c.entries) (hp : 0 < c.parts) (n : Nat) (hn : n < L) :
    c.fft.inv (accLoop c i f (c.parts - 1)) (L + n) = conv (h f) (xs i) (time + n) := by
  have := accLoop_sem hr i f hi hf (c.parts - 1) (by omega) (L + n) (by omega)
  rw [this, show c.parts - 1 + 1 = c.parts by omega]
  exact partitions_conv hr.shape (h f) (xs i) (hr.hlen f) time (hr.time i) n hn

end Visr.Convolver
