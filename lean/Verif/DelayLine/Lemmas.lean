import Verif.DelayLine.Spec
import Verif.CircularBuffer.Lemmas
import Verif.Lagrange.Props
import Mathlib.Algebra.BigOperators.Intervals
import Mathlib.Tactic.Linarith
import Mathlib.Tactic.Ring
import Mathlib.Tactic.FieldSimp
import Mathlib.Tactic.SplitIfs
import Mathlib.Algebra.Order.Group.MinMax

set_option linter.unusedSectionVars false

namespace Visr.DelayLine
open Visr Visr.Efl Visr.CircularBuffer Polynomial

variable {K : Type*} [Field K] [LinearOrder K] [IsStrictOrderedRing K] [FloorRing K]

theorem deref_past {b : CB K} {s : Nat → List K} (h : Rep b s) {ch D : Nat} (hch : ch < b.channels) (h1 : 1 ≤ D)
    (hD : D ≤ b.length) : deref b ch 1 (1 - (D : Int)) = .ok (past (s ch) D) := by
  have hlen := h.len
  have hw := h.w
  unfold deref
  simp only
  rw [if_neg (by omega)]
  have e : ((b.alloc : Int) + b.w - (1 : Nat) + (1 - (D : Int))).toNat = b.alloc + b.w - D := by omega
  rw [e, h.past ch hch D h1 (by omega)]

theorem innerProduct_ok (rd : Int → Outcome K) (f : Nat → K) (cs : List K) (off : Int) (acc : K)
    (h : ∀ k < cs.length, rd (off + k) = .ok (f k)) :
    innerProduct rd cs off acc = .ok (acc + ∑ k ∈ Finset.range cs.length, cs.getD k 0 * f k) := by
  induction cs generalizing off acc f with
  | nil => simp [innerProduct]
  | cons c cs ih =>
    have h0 := h 0 (by simp)
    simp only [Nat.cast_zero, Int.add_zero] at h0
    rw [innerProduct, h0]
    simp only
    rw [ih (fun k => f (k + 1))]
    · congr 1
      rw [List.length_cons, Finset.sum_range_succ']
      simp only [List.getD_cons_succ, List.getD_cons_zero]
      ring
    · intro k hk
      have := h (k + 1) (by simpa using hk)
      rw [← this]
      congr 1
      push_cast; ring

theorem collect_ok {α : Type*} (f : Nat → Outcome α) (g : Nat → α) (l : List Nat) (h : ∀ i ∈ l, f i = .ok (g i)) :
    collect f l = .ok (l.map g) := by
  induction l with
  | nil => rfl
  | cons i is ih =>
    rw [collect, h i (by simp)]
    simp only
    rw [ih (fun j hj => h j (by simp [hj]))]
    rfl

theorem vectorRamp_getD (m n i : Nat) (a b : K) (hn : n ≤ m) (hi : i < n) :
    (vectorRamp (List.replicate m (0 : K)) n a b false true).getD i 0 = ramp a b n i := by
  unfold vectorRamp ramp
  have h0 : n ≠ 0 := by omega
  by_cases h1 : n = 1
  · subst h1
    obtain rfl : i = 0 := by omega
    obtain ⟨q, rfl⟩ : ∃ q, m = q + 1 := ⟨m - 1, by omega⟩
    simp [List.replicate_succ]
  · simp only [h0, h1, if_false]
    rw [List.getD_eq_getElem?_getD, List.getElem?_append_left (by simpa using hi)]
    simp [hi]
    ring

/-- The polynomial seen by the coefficient calculator is the polynomial of the specification after an affine change
of the variable. -/
theorem interpolated_shift (x : Nat → K) (N : Nat) (r : Nat) (D : K) :
    Lagrange.interpolated N true ((r : K) + (N : K) / 2 - D) x =
      (Lagrange.interpolate (Finset.range (N + 1)) (fun j => ((r + j : Nat) : K)) x).eval D := by
  set P := Lagrange.interpolate (Finset.range (N + 1)) (fun j => ((r + j : Nat) : K)) x with hP
  have hinj : Set.InjOn (fun j : Nat => ((r + j : Nat) : K)) (Finset.range (N + 1)) := by
    intro a _ b _ hab
    have hab' : ((r + a : Nat) : K) = ((r + b : Nat) : K) := hab
    have : r + a = r + b := by exact_mod_cast hab'
    omega
  have hdeg : P.natDegree ≤ N := by
    have := Lagrange.degree_interpolate_lt x hinj
    rw [Finset.card_range, ← hP] at this
    exact Polynomial.natDegree_le_of_degree_le (Polynomial.degree_le_of_natDegree_le (by
      by_cases h0 : P = 0
      · simp [h0]
      · have := (Polynomial.natDegree_lt_iff_degree_lt h0).mpr this
        omega))
  have hcomp : (P.comp (C ((r : K) + (N : K) / 2) - X)).natDegree ≤ N := by
    calc (P.comp (C ((r : K) + (N : K) / 2) - X)).natDegree
        = P.natDegree * (C ((r : K) + (N : K) / 2) - X).natDegree := natDegree_comp
      _ ≤ P.natDegree * 1 := Nat.mul_le_mul_left _ (by
          rw [natDegree_sub]; compute_degree)
      _ ≤ N := by omega
  have key := Lagrange.lagrange_coefficients_reproduce N true ((r : K) + (N : K) / 2 - D)
    (P.comp (C ((r : K) + (N : K) / 2) - X)) hcomp
  have e1 : eval ((r : K) + (N : K) / 2 - D) (P.comp (C ((r : K) + (N : K) / 2) - X)) = P.eval D := by
    rw [eval_comp]; simp
  rw [e1] at key
  rw [← key]
  unfold Lagrange.interpolated
  apply Finset.sum_congr rfl
  intro i hi
  congr 1
  have hnode := Lagrange.eval_interpolate_at_node x hinj hi
  show x i = eval (Lagrange.offset N true i) (P.comp (C ((r : K) + (N : K) / 2) - X))
  rw [eval_comp]
  have e2 : eval (Lagrange.offset N true i) (C ((r : K) + (N : K) / 2) - X) = ((r + i : Nat) : K) := by
    simp [Lagrange.offset]; ring
  rw [e2, hP, hnode]

theorem roundOffset_neg (m : Nat) (d : K) (hd : 0 ≤ d) :
    roundOffset (-(m : K) - d) = -((m : Int) + ⌊d + 1 / 2⌋) := by
  have hm : (0 : K) ≤ m := Nat.cast_nonneg m
  unfold roundOffset
  rw [if_neg (by linarith)]
  have : -(m : K) - d - 2⁻¹ = -((d + 1 / 2) + (m : Int)) := by
    push_cast; ring
  rw [this, Int.ceil_neg, Int.floor_add_intCast]
  ring

/-- The interpolator computes the fractional delay of the specification for each sample. -/
theorem lagrangeInterpolate_ok (N m n : Nat) (rd : Int → Outcome K) (x : Nat → K) (L : Nat) (dS dE gS gE : K)
    (hn : n ≤ m) (hrd : ∀ D : Nat, 1 ≤ D → D ≤ L → rd (1 - (D : Int)) = .ok (x D))
    (hS : 0 ≤ dS) (hE : 0 ≤ dE)
    (hL : ∀ i < n, n - i + ⌊ramp dS dE n i + 1 / 2⌋.toNat + N ≤ L) :
    lagrangeInterpolate N m rd n dS dE gS gE = .ok ((List.range n).map fun i =>
      ramp gS gE n i * fractional (fun d => x (n - i + d)) N (ramp dS dE n i + (N : K) / 2)) := by
  unfold lagrangeInterpolate
  rw [if_neg (by omega)]
  simp only
  apply collect_ok
  intro i hi
  have hi : i < n := by simpa using hi
  have hnK : (0 : K) < n := by
    have : 0 < n := by omega
    exact_mod_cast this
  rw [vectorRamp_getD _ _ _ _ _ hn hi, vectorRamp_getD _ _ _ _ _ hn hi]
  set δ := ramp dS dE n i with hδ
  have hδ0 : 0 ≤ δ := by
    have h1 : ((i : K) + 1) / n ≤ 1 := by
      rw [div_le_one hnK]; exact_mod_cast hi
    have h2 : 0 ≤ ((i : K) + 1) / n := by positivity
    have : δ = (1 - ((i : K) + 1) / n) * dS + ((i : K) + 1) / n * dE := by rw [hδ]; unfold ramp; ring
    rw [this]
    have := mul_nonneg (sub_nonneg.mpr h1) hS
    have := mul_nonneg h2 hE
    linarith
  have hdelay : ramp (-((n + N : Nat) : K) - dS) (-(N : K) - dE) n i = -((N + (n - 1 - i) : Nat) : K) - δ := by
    have hc : ((n - 1 - i : Nat) : K) = (n : K) - 1 - i := by
      rw [Nat.cast_sub (by omega), Nat.cast_sub (by omega)]; simp
    rw [hδ]
    unfold ramp
    push_cast
    rw [hc]
    field_simp
    ring
  rw [hdelay, roundOffset_neg _ _ hδ0]
  set r : Nat := ⌊δ + 1 / 2⌋.toNat with hr
  have hfl : ⌊δ + 1 / 2⌋ = (r : Int) := by
    have : 0 ≤ ⌊δ + 1 / 2⌋ := Int.floor_nonneg.mpr (by positivity)
    omega
  rw [hfl]
  have hmu : -((N + (n - 1 - i) : Nat) : K) - δ - ((-(((N + (n - 1 - i) : Nat) : Int) + (r : Int)) : Int) : K)
      = (r : K) + (N : K) / 2 - (δ + (N : K) / 2) := by
    push_cast; ring
  rw [hmu]
  have hlen := Lagrange.length_calculateCoefficients N true ((r : K) + (N : K) / 2 - (δ + (N : K) / 2))
  have hLi := hL i hi
  rw [← hδ, ← hr] at hLi
  rw [innerProduct_ok rd (fun k => x (n - i + (r + (N - k))))]
  · simp only [zero_add]
    congr 1
    congr 1
    rw [List.length_reverse, hlen]
    have hfr : fractional (fun d => x (n - i + d)) N (δ + (N : K) / 2) =
        Lagrange.interpolated N true ((r : K) + (N : K) / 2 - (δ + (N : K) / 2)) (fun j => x (n - i + (r + j))) := by
      rw [interpolated_shift (fun j => x (n - i + (r + j)))]
      unfold fractional
      have : ⌊δ + (N : K) / 2 - (N : K) / 2 + 1 / 2⌋.toNat = r := by
        rw [hr]; congr 2; ring
      simp only [this]
    rw [hfr]
    unfold Lagrange.interpolated
    rw [← Finset.sum_range_reflect]
    apply Finset.sum_congr rfl
    intro j hj
    have hj : j < N + 1 := by simpa using hj
    rw [show N + 1 - 1 - j = N - j by omega, show N - (N - j) = j by omega]
    congr 1
    rw [List.getD_eq_getElem?_getD, List.getD_eq_getElem?_getD, List.getElem?_reverse (by omega), hlen]
    congr 2
    omega
  · intro k hk
    rw [List.length_reverse, hlen] at hk
    have := hrd (n - i + (r + (N - k))) (by omega) (by omega)
    rw [← this]
    congr 1
    omega

theorem adjustDelay_ok {eps : K} (heps : 0 ≤ eps) (d : DL K) (sec : K)
    (h : accepted d.policy d.order (sec * d.fs) d.maxDelay) :
    adjustDelay eps d sec = .ok (totalDelay d.policy d.order (sec * d.fs) - (d.order : K) / 2) ∧
    0 ≤ totalDelay d.policy d.order (sec * d.fs) - (d.order : K) / 2 := by
  obtain ⟨h1, h2⟩ := h
  unfold adjustDelay totalDelay methodDelay
  simp only
  rw [if_neg (by linarith)]
  cases hp : d.policy with
  | add =>
    rw [hp] at h2
    simp only at h2 ⊢
    rw [if_neg (by linarith)]
    exact ⟨by congr 1; ring, by linarith⟩
  | limit =>
    simp only
    refine ⟨?_, by simp⟩
    congr 1
    rw [← max_sub_sub_right, sub_self]
    congr 1; ring
  | reject =>
    rw [hp] at h2
    simp only at h2 ⊢
    rw [if_neg (by linarith)]
    exact ⟨by congr 1; ring, by linarith⟩

theorem ramp_le {a b c : K} {n i : Nat} (hi : i < n) (ha : a ≤ c) (hb : b ≤ c) : ramp a b n i ≤ c := by
  have hnK : (0 : K) < n := by
    have : 0 < n := by omega
    exact_mod_cast this
  have h1 : ((i : K) + 1) / n ≤ 1 := by
    rw [div_le_one hnK]; exact_mod_cast hi
  have h2 : 0 ≤ ((i : K) + 1) / n := by positivity
  have : ramp a b n i = (1 - ((i : K) + 1) / n) * a + ((i : K) + 1) / n * b := by unfold ramp; ring
  rw [this]
  have e1 := mul_le_mul_of_nonneg_left ha (sub_nonneg.mpr h1)
  have e2 := mul_le_mul_of_nonneg_left hb h2
  calc _ ≤ (1 - ((i : K) + 1) / n) * c + ((i : K) + 1) / n * c := add_le_add e1 e2
    _ = c := by ring

theorem ramp_sub (a b c : K) (n i : Nat) : ramp (a - c) (b - c) n i + c = ramp a b n i := by
  unfold ramp; ring

/-- Output of a delay line whose ring buffer holds the signals `s`. -/
theorem interpolate_rep {eps : K} (heps : 0 ≤ eps) {d : DL K} {s : Nat → List K} (hrep : Rep d.ring s) (ch n : Nat)
    {M : Int} (hM : 0 ≤ M) (hmax : d.maxDelay = (M : K)) (hlen : d.ring.length = M.toNat + d.blockLength)
    (hch : ch < d.ring.channels) (hn : n ≤ d.blockLength) (startDelay endDelay startGain endGain : K)
    (hS : accepted d.policy d.order (startDelay * d.fs) (M : K))
    (hE : accepted d.policy d.order (endDelay * d.fs) (M : K))
    (hroomS : totalDelay d.policy d.order (startDelay * d.fs) + (d.order : K) / 2 ≤ (M : K))
    (hroomE : totalDelay d.policy d.order (endDelay * d.fs) + (d.order : K) / 2 ≤ (M : K)) :
    interpolate eps d ch n startDelay endDelay startGain endGain = .ok ((List.range n).map fun i =>
        ramp startGain endGain n i *
          fractional (fun k => past (s ch) (n - i + k)) d.order
            (ramp (totalDelay d.policy d.order (startDelay * d.fs)) (totalDelay d.policy d.order (endDelay * d.fs))
              n i)) := by
  have aS := adjustDelay_ok heps d startDelay (by rw [hmax]; exact hS)
  have aE := adjustDelay_ok heps d endDelay (by rw [hmax]; exact hE)
  unfold interpolate
  rw [if_neg (by omega), aS.1, aE.1]
  simp only
  rw [lagrangeInterpolate_ok (x := fun k => past (s ch) k) (L := M.toNat + d.blockLength)]
  · congr 1
    apply List.map_congr_left
    intro i _
    rw [ramp_sub]
  · omega
  · intro D hD1 hD2
    exact deref_past hrep (ch := ch) (D := D) (by omega) hD1 (by omega)
  · exact aS.2
  · exact aE.2
  · intro i hi
    set δ := ramp (totalDelay d.policy d.order (startDelay * d.fs) - (d.order : K) / 2)
      (totalDelay d.policy d.order (endDelay * d.fs) - (d.order : K) / 2) n i with hδ
    have hle : δ ≤ (M : K) - d.order := ramp_le hi (by linarith) (by linarith)
    have hfl : ⌊δ + 1 / 2⌋ ≤ M - d.order := by
      have : ⌊δ + 1 / 2⌋ < M - d.order + 1 := by
        rw [Int.floor_lt]; push_cast; linarith
      omega
    have hnn : (0 : Int) ≤ M - d.order := by
      have h0 : (0 : K) ≤ (M : K) - d.order := by
        have := aS.2; linarith
      exact_mod_cast h0
    omega

end Visr.DelayLine
