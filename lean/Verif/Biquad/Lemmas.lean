import Verif.Biquad.Spec
import Mathlib.Tactic.Ring
import Mathlib.Tactic.SplitIfs
import Mathlib.Tactic.Common

/-! # Lemmas for the IIR filter proofs -/

set_option linter.unusedSectionVars false

namespace Visr.Biquad
open Visr

variable {K : Type*} [Field K]

/-- Contribution of the sample before to the state `v2`. -/
def tail2 (c : Nat → Coef K) (x : Nat → K) : Nat → K
  | 0 => 0
  | n + 1 => (c n).b2 * x n - (c n).a2 * iir c x n

/-- Contribution of the two samples before to the state `v1`. -/
def tail1 (c : Nat → Coef K) (x : Nat → K) : Nat → K
  | 0 => 0
  | n + 1 => tail2 c x n + (c n).b1 * x n - (c n).a1 * iir c x n

theorem iir_eq (c : Nat → Coef K) (x : Nat → K) (n : Nat) : iir c x n = (c n).b0 * x n + tail1 c x n := by
  rcases n with _ | _ | n
  · simp [iir, tail1]
  · simp only [iir, tail1, tail2]; ring
  · simp only [iir, tail1, tail2]; ring

theorem iir_congr {c c' : Nat → Coef K} {x x' : Nat → K} (n : Nat) (h : ∀ m ≤ n, c m = c' m ∧ x m = x' m) :
    iir c x n = iir c' x' n := by
  induction n using Nat.strongRecOn with
  | ind n ih =>
    rcases n with _ | _ | n
    · simp only [iir]; rw [(h 0 le_rfl).1, (h 0 le_rfl).2]
    · simp only [iir]
      rw [(h 0 (by omega)).1, (h 0 (by omega)).2, (h 1 le_rfl).1, (h 1 le_rfl).2]
    · have e1 := ih (n + 1) (by omega) (fun m hm => h m (by omega))
      have e0 := ih n (by omega) (fun m hm => h m (by omega))
      simp only [iir]
      rw [e1, e0, (h n (by omega)).1, (h n (by omega)).2, (h (n + 1) (by omega)).1, (h (n + 1) (by omega)).2,
        (h (n + 2) le_rfl).1, (h (n + 2) le_rfl).2]

theorem cascade_congr {c c' : Nat → Nat → Coef K} {x x' : Nat → K} (k n : Nat)
    (h : ∀ m ≤ n, (∀ j < k, c m j = c' m j) ∧ x m = x' m) : cascade c x k n = cascade c' x' k n := by
  induction k generalizing n with
  | zero => exact (h n le_rfl).2
  | succ k ih =>
    simp only [cascade]
    apply iir_congr
    intro m hm
    exact ⟨(h m hm).1 k (by omega), ih m (fun m' hm' => ⟨fun j hj => (h m' (by omega)).1 j (by omega),
      (h m' (by omega)).2⟩)⟩

theorem tail2_congr {c c' : Nat → Coef K} {x x' : Nat → K} (n : Nat) (h : ∀ m < n, c m = c' m ∧ x m = x' m) :
    tail2 c x n = tail2 c' x' n := by
  rcases n with _ | n
  · rfl
  · simp only [tail2]
    rw [(h n (by omega)).1, (h n (by omega)).2, iir_congr n (fun m hm => h m (by omega))]

theorem tail1_congr {c c' : Nat → Coef K} {x x' : Nat → K} (n : Nat) (h : ∀ m < n, c m = c' m ∧ x m = x' m) :
    tail1 c x n = tail1 c' x' n := by
  rcases n with _ | n
  · rfl
  · simp only [tail1]
    rw [(h n (by omega)).1, (h n (by omega)).2, iir_congr n (fun m hm => h m (by omega)),
      tail2_congr n (fun m hm => h m (by omega))]

/-- One section over one block computes the difference equation and leaves the states of the next sample. -/
theorem biquad_block (C : Coef K) (co : Nat → K) (hco : ∀ i < 5, co i = C.data i) (c : Nat → Coef K) (x : Nat → K) :
    ∀ (l : List K) (L : Nat), (∀ i < l.length, c (L + i) = C ∧ l[i]? = some (x (L + i))) →
      biquad co (tail1 c x L) (tail2 c x L) l =
        ((List.range l.length).map (fun i => iir c x (L + i)), tail1 c x (L + l.length), tail2 c x (L + l.length)) := by
  intro l
  induction l with
  | nil => intro L _; rfl
  | cons s l ih =>
    intro L h
    have h0 := h 0 (by simp)
    simp only [Nat.add_zero, List.getElem?_cons_zero, Option.some.injEq] at h0
    have hy : co 0 * s + tail1 c x L = iir c x L := by
      rw [iir_eq, h0.1, hco 0 (by omega), h0.2]; rfl
    have hv1 : tail2 c x L + co 1 * s - co 3 * iir c x L = tail1 c x (L + 1) := by
      simp only [tail1]; rw [h0.1, hco 1 (by omega), hco 3 (by omega), h0.2]; rfl
    have hv2 : co 2 * s - co 4 * iir c x L = tail2 c x (L + 1) := by
      simp only [tail2]; rw [h0.1, hco 2 (by omega), hco 4 (by omega), h0.2]; rfl
    have := ih (L + 1) (by
      intro i hi
      have := h (i + 1) (by simpa using hi)
      rw [show L + 1 + i = L + (i + 1) by omega]
      exact ⟨this.1, by simpa using this.2⟩)
    simp only [biquad, hy, hv1, hv2, this]
    rw [List.length_cons, List.range_succ_eq_map]
    simp only [List.map_cons, Nat.add_zero, List.map_map]
    refine Prod.ext ?_ (Prod.ext ?_ ?_)
    · simp only [List.cons.injEq, true_and]
      apply List.map_congr_left
      intro i _
      simp only [Function.comp]
      congr 1; omega
    · show tail1 c x (L + 1 + l.length) = tail1 c x (L + (l.length + 1))
      rw [show L + 1 + l.length = L + (l.length + 1) by omega]
    · show tail2 c x (L + 1 + l.length) = tail2 c x (L + (l.length + 1))
      rw [show L + 1 + l.length = L + (l.length + 1) by omega]

/-- The states of all sections are those of the cascade after `L` samples. -/
def StatesAt (c : Nat → Nat → Coef K) (x : Nat → K) (sections : Nat) (states : Nat → K) (L : Nat) : Prop :=
  ∀ k < sections, states (k * 2) = tail1 (fun n => c n k) (cascade c x k) L ∧
    states (k * 2 + 1) = tail2 (fun n => c n k) (cascade c x k) L

theorem sectionLoop_block (t : Nat → Coef K) (co : Nat → K) (sections : Nat)
    (hco : ∀ k < sections, ∀ i < 5, co (k * 5 + i) = (t k).data i) (c : Nat → Nat → Coef K) (x : Nat → K) (L len : Nat)
    (hc : ∀ i < len, ∀ k < sections, c (L + i) k = t k) :
    ∀ (n j : Nat) (states : Nat → K), j + n = sections →
      (∀ k < j, states (k * 2) = tail1 (fun n => c n k) (cascade c x k) (L + len) ∧
        states (k * 2 + 1) = tail2 (fun n => c n k) (cascade c x k) (L + len)) →
      (∀ k, j ≤ k → k < sections → states (k * 2) = tail1 (fun n => c n k) (cascade c x k) L ∧
        states (k * 2 + 1) = tail2 (fun n => c n k) (cascade c x k) L) →
      ∃ st, sectionLoop co 2 5 n j ((List.range len).map fun i => cascade c x j (L + i)) states =
        ((List.range len).map (fun i => cascade c x sections (L + i)), st) ∧ StatesAt c x sections st (L + len) := by
  intro n
  induction n with
  | zero =>
    intro j states hj hdone _
    simp only [Nat.add_zero] at hj
    subst hj
    exact ⟨states, rfl, hdone⟩
  | succ n ih =>
    intro j states hj hdone htodo
    have hjs : j < sections := by omega
    obtain ⟨s1, s2⟩ := htodo j le_rfl hjs
    have hb := biquad_block (t j) (fun i => co (j * 5 + i)) (hco j hjs) (fun n => c n j) (cascade c x j)
      ((List.range len).map fun i => cascade c x j (L + i)) L (by
        intro i hi
        simp only [List.length_map, List.length_range] at hi
        exact ⟨hc i hi j hjs, by simp [hi]⟩)
    simp only [sectionLoop, s1, s2, hb, List.length_map, List.length_range]
    refine ih (j + 1) _ (by omega) ?_ ?_
    · intro k hk
      simp only [storeStates]
      by_cases hkj : k = j
      · subst hkj; simp
      · have := hdone k (by omega)
        rw [if_neg (by omega), if_neg (by omega), if_neg (by omega), if_neg (by omega)]
        exact this
    · intro k hk1 hk2
      simp only [storeStates]
      rw [if_neg (by omega), if_neg (by omega), if_neg (by omega), if_neg (by omega)]
      exact htodo k (by omega) hk2

/-- One channel over one block. -/
theorem channel_block (t : Nat → Coef K) (co : Nat → K) (sections : Nat)
    (hco : ∀ k < sections, ∀ i < 5, co (k * 5 + i) = (t k).data i) (c : Nat → Nat → Coef K) (x : Nat → K) (L : Nat)
    (l : List K) (hl : ∀ i < l.length, l[i]? = some (x (L + i)) ∧ ∀ k < sections, c (L + i) k = t k)
    (states : Nat → K) (hs : StatesAt c x sections states L) :
    ∃ st, iirFilterBiquadsSingleChannel l states co sections 2 5 =
        ((List.range l.length).map (fun i => cascade c x sections (L + i)), st) ∧
      StatesAt c x sections st (L + l.length) := by
  have hlx : l = (List.range l.length).map fun i => cascade c x 0 (L + i) := by
    apply List.ext_getElem
    · simp
    · intro i h1 h2
      have := (hl i h1).1
      rw [List.getElem?_eq_getElem h1] at this
      simpa [cascade] using this
  have loop := sectionLoop_block t co sections hco c x L l.length (fun i hi k hk => (hl i hi).2 k hk)
  unfold iirFilterBiquadsSingleChannel
  by_cases h0 : sections = 0
  · subst h0
    simp only [if_true]
    exact ⟨states, by rw [← hlx], fun k hk => absurd hk (by omega)⟩
  · rw [if_neg h0]
    have := loop sections 0 states (by omega) (fun k hk => absurd hk (by omega)) (fun k _ hk => hs k hk)
    obtain ⟨n, hn⟩ : ∃ n, sections = n + 1 := ⟨sections - 1, by omega⟩
    rw [← hlx] at this
    rw [hn] at this ⊢
    simpa [sectionLoop] using this

/-! ## Coefficient storage -/

/-- The storage of the filter holds the coefficient table. -/
def CoeffsHold (f : Filter K) (t : Tab K) : Prop :=
  ∀ ch k, ch < f.channels → k < f.sections → ∀ i < 5, f.coeffs ch (k * 5 + i) = (t ch k).data i

theorem setInternal_coeffs (f : Filter K) (ch k : Nat) (c : Coef K) (ch' k' i : Nat) (hi : i < 5) :
    (f.setInternal ch k c).coeffs ch' (k' * 5 + i) =
      if ch' = ch ∧ k' = k then c.data i else f.coeffs ch' (k' * 5 + i) := by
  simp only [Filter.setInternal]
  by_cases h : ch' = ch ∧ k' = k
  · rw [if_pos h, if_pos ⟨h.1, by rw [h.2]; omega, by rw [h.2]; omega⟩, h.2]
    congr 1; omega
  · rw [if_neg h, if_neg]
    rintro ⟨h1, h2, h3⟩
    exact h ⟨h1, by omega⟩

theorem setChannelLoop_ok (f : Filter K) (ch : Nat) (cs : List (Coef K)) (n : Nat) (hn : n ≤ cs.length) :
    ∃ f', f.setChannelLoop ch cs n = .ok f' ∧ f'.channels = f.channels ∧ f'.sections = f.sections ∧
      f'.states = f.states ∧ ∀ ch' k' i, i < 5 → f'.coeffs ch' (k' * 5 + i) =
        if ch' = ch ∧ k' < n then ((cs[k']?).map (·.data i)).getD (f.coeffs ch' (k' * 5 + i))
        else f.coeffs ch' (k' * 5 + i) := by
  induction n with
  | zero => exact ⟨f, rfl, rfl, rfl, rfl, by intro ch' k' i _; simp⟩
  | succ n ih =>
    obtain ⟨f', h1, h2, h3, h4, h5⟩ := ih (by omega)
    have hnl : n < cs.length := by omega
    simp only [Filter.setChannelLoop, h1, List.getElem?_eq_getElem hnl]
    refine ⟨_, rfl, h2, h3, h4, ?_⟩
    intro ch' k' i hi
    rw [setInternal_coeffs _ _ _ _ _ _ _ hi, h5 ch' k' i hi]
    by_cases hch : ch' = ch
    · by_cases hk : k' = n
      · subst hk; simp [hch, hnl]
      · have : k' < n + 1 ↔ k' < n := by omega
        simp [hch, hk, this]
    · simp [hch]

theorem setMatrixLoop_ok (f : Filter K) (m : List (List (Coef K))) (n : Nat) (hn : n ≤ m.length)
    (hrect : ∀ r ∈ m, r.length = f.sections) :
    ∃ f', f.setMatrixLoop m n = .ok f' ∧ f'.channels = f.channels ∧ f'.sections = f.sections ∧
      f'.states = f.states ∧ ∀ ch k i, k < f.sections → i < 5 → f'.coeffs ch (k * 5 + i) =
        if ch < n then ((m[ch]?.bind fun r => r[k]?).map (·.data i)).getD (f.coeffs ch (k * 5 + i))
        else f.coeffs ch (k * 5 + i) := by
  induction n with
  | zero => exact ⟨f, rfl, rfl, rfl, rfl, by intro ch k i _ _; simp⟩
  | succ n ih =>
    obtain ⟨f', h1, h2, h3, h4, h5⟩ := ih (by omega)
    have hnl : n < m.length := by omega
    have hlen : m[n].length = f'.sections := by rw [h3]; exact hrect _ (List.getElem_mem _)
    obtain ⟨f'', g1, g2, g3, g4, g5⟩ := setChannelLoop_ok f' n m[n] f'.sections (by omega)
    simp only [Filter.setMatrixLoop, h1, List.getElem?_eq_getElem hnl, g1]
    refine ⟨f'', rfl, by rw [g2, h2], by rw [g3, h3], by rw [g4, h4], ?_⟩
    intro ch k i hk hi
    rw [g5 ch k i hi, h5 ch k i hk hi]
    by_cases hch : ch = n
    · subst hch
      have : k < f'.sections := by omega
      simp [hnl, this]
    · have : ch < n + 1 ↔ ch < n := by omega
      simp [hch, this]

end Visr.Biquad
