import Verif.Lagrange.Model
import Mathlib.LinearAlgebra.Lagrange
import Mathlib.Algebra.Order.Field.Rat
import Mathlib.Tactic.Linarith
import Mathlib.Tactic.Ring
import Mathlib.Tactic.NormNum

/-!
# C17: Lagrange coefficients

The specification is Mathlib's `Lagrange.basis`: the polynomial of degree `N` that is 1 at one node and 0 at the
others. The nodes are the sample positions `-N/2, -N/2+1, …, N/2` relative to the centre of the filter.
-/

set_option linter.unusedSectionVars false

namespace Visr.Lagrange
open Polynomial

variable {K : Type*} [Field K]

/-! ## The product tree -/

theorem pairProducts_prod : ∀ l : List K, (pairProducts l).prod = l.prod
  | [] => rfl
  | [_] => rfl
  | a :: b :: l => by simp [pairProducts, pairProducts_prod l, mul_assoc]

theorem combine_spec : ∀ (l : List K) (c : K),
    combine l ((List.range (pairProducts l).length).map (fun k => c * ((pairProducts l).eraseIdx k).prod))
      = (List.range l.length).map (fun i => c * (l.eraseIdx i).prod)
  | [], c => by simp [combine]
  | [a], c => by simp [combine, pairProducts]
  | a :: b :: l, c => by
    have ih := combine_spec l (c * (a * b))
    simp only [pairProducts, List.length_cons]
    rw [List.range_succ_eq_map, List.map_cons, combine]
    rw [List.range_succ_eq_map, List.map_cons, List.range_succ_eq_map]
    simp only [List.map_map, List.map_cons]
    congr 1
    · simp [pairProducts_prod]; ring
    congr 1
    · simp [pairProducts_prod]; ring
    · have e1 : (List.range (pairProducts l).length).map
          ((fun k => c * ((a * b :: pairProducts l).eraseIdx k).prod) ∘ Nat.succ)
          = (List.range (pairProducts l).length).map (fun k => c * (a * b) * ((pairProducts l).eraseIdx k).prod) := by
        apply List.map_congr_left
        intro k _
        simp [mul_assoc]
      rw [e1, ih]
      apply List.map_congr_left
      intro i _
      simp [mul_assoc]

/-- Each entry becomes the product of all others. -/
theorem multiplyAndShuffle_spec (l : List K) :
    multiplyAndShuffle l = (List.range l.length).map (fun i => (l.eraseIdx i).prod) := by
  fun_induction multiplyAndShuffle l with
  | case1 => rfl
  | case2 => simp
  | case3 a b => simp [List.range, List.range.loop]
  | case4 a b c l ih =>
    rw [ih]
    have := combine_spec (a :: b :: c :: l) 1
    simpa using this

/-! ## Products over a range -/

theorem foldl_prod (f : Nat → K) (idx : Nat) (l : List Nat) (acc : K) :
    l.foldl (fun acc run => if run ≠ idx then acc * f run else acc) acc
      = acc * ((l.filter (· ≠ idx)).map f).prod := by
  induction l generalizing acc with
  | nil => simp
  | cons x l ih =>
    rw [List.foldl_cons, ih]
    by_cases h : x = idx
    · simp [h]
    · simp [h, mul_assoc]

theorem prod_range_erase (f : Nat → K) (n i : Nat) :
    (((List.range n).filter (· ≠ i)).map f).prod = ∏ j ∈ (Finset.range n).erase i, f j := by
  have : (Finset.range n).erase i = ((List.range n).filter (· ≠ i)).toFinset := by
    ext j; simp [and_comm]
  rw [this, List.prod_toFinset]
  exact List.Nodup.filter _ List.nodup_range

theorem eraseIdx_range (n i : Nat) : (List.range n).eraseIdx i = (List.range n).filter (· ≠ i) := by
  have key : ∀ (m k : Nat), (List.range' m n).eraseIdx k = (List.range' m n).filter (· ≠ m + k) := by
    induction n with
    | zero => simp
    | succ n ih =>
      intro m k
      rw [List.range'_succ]
      cases k with
      | zero =>
        simp only [List.eraseIdx_zero, List.tail_cons, Nat.add_zero]
        rw [List.filter_cons_of_neg (by simp)]
        symm
        apply List.filter_eq_self.mpr
        intro a ha
        simp [List.mem_range'] at ha
        obtain ⟨j, _, rfl⟩ := ha
        simp; omega
      | succ k =>
        rw [List.eraseIdx_cons_succ, List.filter_cons_of_pos (by simp), ih (m + 1) k]
        rw [show m + 1 + k = m + (k + 1) by omega]
  have := key 0 i
  rwa [← List.range_eq_range', Nat.zero_add] at this

theorem eraseIdx_map {α β : Type*} (f : α → β) (l : List α) (i : Nat) :
    (l.map f).eraseIdx i = (l.eraseIdx i).map f := by
  induction l generalizing i with
  | nil => simp
  | cons x l ih => cases i <;> simp [ih]

variable [CharZero K]

theorem offset_inj (N : Nat) (reverse : Bool) {i j : Nat} (h : (offset N reverse i : K) = offset N reverse j) :
    i = j := by
  unfold offset at h
  cases reverse <;> simp at h <;> exact h

theorem length_calculateCoefficients (N : Nat) (reverse : Bool) (mu : K) :
    (calculateCoefficients N reverse mu).length = N + 1 := by
  simp [calculateCoefficients, multiplyAndShuffle_spec]

/-- **C17.** For every order `N`, every position `mu` and both storage orders, the `i`-th coefficient is the Lagrange
basis polynomial of the `i`-th node evaluated at `mu`. -/
theorem lagrange_coefficients_are_basis (N : Nat) (reverse : Bool) (mu : K) (i : Nat) (hi : i ≤ N) :
    (calculateCoefficients N reverse mu)[i]?
      = some ((Lagrange.basis (Finset.range (N + 1)) (offset N reverse) i).eval mu) := by
  unfold calculateCoefficients
  simp only [multiplyAndShuffle_spec, List.length_map, List.length_range]
  rw [List.getElem?_zipWith]
  simp only [List.getElem?_map, List.getElem?_range (show i < N + 1 by omega), Option.map_some]
  congr 1
  rw [eraseIdx_map, eraseIdx_range, prod_range_erase]
  unfold scaleFactor
  rw [foldl_prod (fun run => offset N reverse run - offset N reverse i), prod_range_erase, one_mul]
  unfold Lagrange.basis Lagrange.basisDivisor
  rw [eval_prod, one_div, ← Finset.prod_inv_distrib, ← Finset.prod_mul_distrib]
  apply Finset.prod_congr rfl
  intro j hj
  simp only [eval_mul, eval_C, eval_sub, eval_X]
  have hne : (offset N reverse i : K) - offset N reverse j ≠ 0 := by
    intro h
    have := offset_inj N reverse (sub_eq_zero.mp h)
    simp at hj
    exact hj.1 this.symm
  have hne' : (offset N reverse j : K) - offset N reverse i ≠ 0 := by
    intro h; apply hne; rw [← neg_sub, h, neg_zero]
  rw [show (offset N reverse j : K) - offset N reverse i = -(offset N reverse i - offset N reverse j) by ring,
    inv_neg]
  ring

theorem injOn_offset (N : Nat) (reverse : Bool) :
    Set.InjOn (offset (K := K) N reverse) (Finset.range (N + 1)) := fun _ _ _ _ h => offset_inj N reverse h

/-- The weighted sum of samples `x` taken at the nodes. -/
def interpolated (N : Nat) (reverse : Bool) (mu : K) (x : Nat → K) : K :=
  ∑ i ∈ Finset.range (N + 1), (calculateCoefficients N reverse mu).getD i 0 * x i

theorem interpolated_eq (N : Nat) (reverse : Bool) (mu : K) (x : Nat → K) :
    interpolated N reverse mu x =
      (Lagrange.interpolate (Finset.range (N + 1)) (offset N reverse) x).eval mu := by
  unfold interpolated
  rw [Lagrange.interpolate_apply, eval_finsetSum]
  apply Finset.sum_congr rfl
  intro i hi
  have hi' : i ≤ N := by simp at hi; omega
  rw [List.getD_eq_getElem?_getD, lagrange_coefficients_are_basis N reverse mu i hi', Option.getD_some]
  simp [mul_comm]

theorem sum_getD (l : List K) (n : Nat) (h : n = l.length) : l.sum = ∑ i ∈ Finset.range n, l.getD i 0 := by
  subst h
  induction l with
  | nil => simp
  | cons x l ih =>
    rw [List.length_cons, Finset.sum_range_succ', List.sum_cons, ih, add_comm]
    simp

/-- **C17, sum.** The coefficients sum to one. -/
theorem lagrange_coefficients_sum (N : Nat) (reverse : Bool) (mu : K) :
    (calculateCoefficients N reverse mu).sum = 1 := by
  have h1 := interpolated_eq N reverse mu (1 : Nat → K)
  rw [Lagrange.interpolate_one (injOn_offset N reverse) (by simp)] at h1
  simp only [eval_one, interpolated, Pi.one_apply, mul_one] at h1
  rw [← h1, sum_getD _ _ (length_calculateCoefficients N reverse mu).symm]

/-- **C17, selection.** At the position of a node the coefficients select exactly this sample. -/
theorem lagrange_coefficients_select (N : Nat) (reverse : Bool) (x : Nat → K) (j : Nat) (hj : j ≤ N) :
    interpolated N reverse (offset N reverse j) x = x j := by
  rw [interpolated_eq]
  exact Lagrange.eval_interpolate_at_node x (injOn_offset N reverse) (by simp; omega)

/-- **C17, polynomials.** Samples of a polynomial of degree at most `N` are interpolated to the value of the polynomial
at every position. -/
theorem lagrange_coefficients_reproduce (N : Nat) (reverse : Bool) (mu : K) (p : K[X]) (hp : p.natDegree ≤ N) :
    interpolated N reverse mu (fun i => p.eval (offset N reverse i)) = p.eval mu := by
  rw [interpolated_eq]
  rw [← Lagrange.eq_interpolate_of_eval_eq (f := p) (fun i => p.eval (offset N reverse i)) (injOn_offset N reverse)
    ?_ (fun i _ => rfl)]
  rw [Finset.card_range]
  exact lt_of_le_of_lt degree_le_natDegree (by exact_mod_cast Nat.lt_succ_of_le hp)

/-- A concrete case: third order, halfway between two samples. -/
example : calculateCoefficients 3 true (0 : ℚ) = [-1/16, 9/16, 9/16, -1/16] := by
  simp [calculateCoefficients, multiplyAndShuffle_spec, scaleFactor, offset, List.range, List.range.loop]
  norm_num

example : interpolated 3 true (1/4 : ℚ) (fun i => (X ^ 3 - 2 * X : ℚ[X]).eval (offset 3 true i))
    = (1/4) ^ 3 - 2 * (1/4) := by
  rw [lagrange_coefficients_reproduce]
  · simp
  · compute_degree

end Visr.Lagrange
