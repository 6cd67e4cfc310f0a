import Verif.Vbap.Model
import Verif.Vbap.Spec
import Mathlib.Tactic.Linarith
import Mathlib.Tactic.LinearCombination
import Mathlib.Tactic.Positivity
import Mathlib.Tactic.FieldSimp
import Mathlib.Tactic.Ring
import Mathlib.Tactic.NormNum
import Mathlib.Algebra.BigOperators.Intervals
import Mathlib.Algebra.Order.BigOperators.Group.Finset

/-!
# Lemmas for the VBAP theorems
-/

namespace Visr.Vbap

open Visr Visr.Rotation

theorem normalise_eq_direction {eps : ℝ} {p l : Vec ℝ} (h : eps ≤ (l.sub p).norm) :
    normalise eps (l.sub p) = direction p l := by
  unfold normalise direction
  have e : Real.sqrt ((l.sub p).x * (l.sub p).x + (l.sub p).y * (l.sub p).y + (l.sub p).z * (l.sub p).z) =
      (l.sub p).norm := rfl
  simp only [e]
  rw [if_pos h]
  simp only [Vec.scale, Vec.mk.injEq]
  exact ⟨by ring, by ring, by ring⟩

theorem normalise_multiple {eps : ℝ} (heps : 0 < eps) (a : Vec ℝ) : ∃ k : ℝ, 0 < k ∧ normalise eps a = a.scale k := by
  unfold normalise
  dsimp only
  split_ifs with h
  · refine ⟨1 / Real.sqrt (a.x * a.x + a.y * a.y + a.z * a.z), by have := lt_of_lt_of_le heps h; positivity, ?_⟩
    simp only [Vec.scale, Vec.mk.injEq]
    exact ⟨by ring, by ring, by ring⟩
  · exact ⟨1, one_pos, by simp [Vec.scale]⟩

theorem determinant_eq_triple (u v w : Vec ℝ) : determinant u v w = triple u v w := by
  unfold determinant triple; ring

/-- The computed gains express the source by the corners. -/
theorem gainsOf_combination {u v w : Vec ℝ} (h : triple u v w ≠ 0) (s : Vec ℝ) (j : ℕ) :
    Combination s (gainsOf s (inverse u v w) j).g1 (gainsOf s (inverse u v w) j).g2
      (gainsOf s (inverse u v w) j).g3 u v w := by
  have hd : determinant u v w ≠ 0 := by rw [determinant_eq_triple]; exact h
  simp only [Combination, gainsOf, inverse]
  rw [if_pos hd]
  refine ⟨?_, ?_, ?_⟩ <;> field_simp <;> simp only [determinant] <;> ring

/-- Cramer's rule: the coefficients are unique. -/
theorem gainsOf_unique {u v w : Vec ℝ} (h : triple u v w ≠ 0) {s : Vec ℝ} {a b c : ℝ}
    (hs : Combination s a b c u v w) (j : ℕ) : gainsOf s (inverse u v w) j = ⟨j, a, b, c⟩ := by
  have hd : determinant u v w ≠ 0 := by rw [determinant_eq_triple]; exact h
  obtain ⟨hx, hy, hz⟩ := hs
  simp only [gainsOf, inverse, hx, hy, hz]
  rw [if_pos hd]
  simp only [Found.mk.injEq, true_and]
  refine ⟨?_, ?_, ?_⟩ <;> field_simp <;> simp only [determinant] <;> ring

theorem mapM_get {α β : Type*} {f : α → Option β} {l : List α} {r : List β} (h : l.mapM f = some r) :
    r.length = l.length ∧ ∀ (j : ℕ) (t : α), l[j]? = some t → ∃ y, f t = some y ∧ r[j]? = some y := by
  induction l generalizing r with
  | nil =>
    simp at h
    subst h
    simp
  | cons a l ih =>
    simp only [List.mapM_cons, Option.bind_eq_bind] at h
    cases ha : f a with
    | none => simp [ha] at h
    | some y =>
      cases hl : l.mapM f with
      | none => simp [ha, hl] at h
      | some ys =>
        simp [ha, hl] at h
        subst h
        obtain ⟨h1, h2⟩ := ih hl
        refine ⟨by simp [h1], ?_⟩
        intro j t hj
        cases j with
        | zero => simp at hj; subst hj; exact ⟨y, ha, by simp⟩
        | succ j => simp at hj; obtain ⟨z, hz1, hz2⟩ := h2 j t hj; exact ⟨z, hz1, by simpa using hz2⟩

/-- What `setListenerPosition` establishes. -/
theorem setListener_spec {eps : ℝ} {v0 v : Vbap} {p : Vec ℝ} (h : v0.setListener eps p = .ok v) :
    v.positions = v0.positions ∧ v.regular = v0.regular ∧ v.triplets = v0.triplets ∧ v.is2D = v0.is2D ∧
      v.rerouting = v0.rerouting ∧ v.listener = p ∧ v.inv.length = v0.triplets.length ∧
      ∀ (j : ℕ) (t : ℕ × ℕ × ℕ), v0.triplets[j]? = some t → ∃ y, invOf eps { v0 with listener := p } t = some y ∧ v.inv[j]? = some y := by
  unfold Vbap.setListener at h
  dsimp only at h
  cases hm : v0.triplets.mapM (invOf eps { v0 with listener := p }) with
  | none => rw [hm] at h; cases h
  | some inv =>
    rw [hm] at h
    injection h with h
    subst h
    obtain ⟨h1, h2⟩ := mapM_get hm
    exact ⟨rfl, rfl, rfl, rfl, rfl, rfl, h1, h2⟩

/-- The condition of the search loop for stopping. -/
def Inside (is2D : Bool) (f : Found) : Prop := 0 ≤ f.g1 ∧ 0 ≤ f.g2 ∧ (0 ≤ f.g3 ∨ is2D = true)

/-- If a triplet is inside, the first such triplet is found. -/
theorem search_inside (is2D : Bool) (s : Vec ℝ) (is : List Inv) (j : ℕ) (c : Option Found)
    (h : ∃ (k : ℕ) (i : Inv), is[k]? = some i ∧ Inside is2D (gainsOf s i (j + k))) :
    ∃ (k : ℕ) (i : Inv), is[k]? = some i ∧ Inside is2D (gainsOf s i (j + k)) ∧
      search is2D s is j c = some (gainsOf s i (j + k)) ∧
      ∀ (k' : ℕ) (i' : Inv), k' < k → is[k']? = some i' → ¬ Inside is2D (gainsOf s i' (j + k')) := by
  induction is generalizing j c with
  | nil => obtain ⟨k, i, hk, -⟩ := h; simp at hk
  | cons i is ih =>
    by_cases hi : Inside is2D (gainsOf s i j)
    · refine ⟨0, i, by simp, hi, ?_, by simp⟩
      simp only [search]
      exact if_pos hi
    · have h' : ∃ (k : ℕ) (i : Inv), is[k]? = some i ∧ Inside is2D (gainsOf s i (j + 1 + k)) := by
        obtain ⟨k, i', hk, hin⟩ := h
        cases k with
        | zero => simp at hk; subst hk; exact absurd hin hi
        | succ k => exact ⟨k, i', by simpa using hk, by rw [show j + 1 + k = j + (k + 1) by omega]; exact hin⟩
      have step : ∃ c', search is2D s (i :: is) j c = search is2D s is (j + 1) c' := by
        simp only [search]
        have e : ¬ ((gainsOf s i j).g1 ≥ 0 ∧ (gainsOf s i j).g2 ≥ 0 ∧ ((gainsOf s i j).g3 ≥ 0 ∨ is2D = true)) := hi
        rw [if_neg e]
        cases c with
        | none => dsimp only; split_ifs <;> exact ⟨_, rfl⟩
        | some b => dsimp only; split_ifs <;> exact ⟨_, rfl⟩
      obtain ⟨c', hc'⟩ := step
      obtain ⟨k, i', h1, h2, h3, h4⟩ := ih (j + 1) c' h'
      refine ⟨k + 1, i', by simpa using h1, by rw [show j + (k + 1) = j + 1 + k by omega]; exact h2,
        by rw [hc', show j + (k + 1) = j + 1 + k by omega]; exact h3, ?_⟩
      intro k' i'' hk' hi''
      cases k' with
      | zero => simp at hi''; subst hi''; exact hi
      | succ k' =>
        rw [show j + (k' + 1) = j + 1 + k' by omega]
        exact h4 k' i'' (by omega) (by simpa using hi'')

theorem gmin_le (f : Found) : f.gmin ≤ f.g1 ∧ f.gmin ≤ f.g2 ∧ f.gmin ≤ f.g3 := by
  unfold Found.gmin
  dsimp only
  split_ifs <;> refine ⟨?_, ?_, ?_⟩ <;> linarith

theorem gmin_mem (f : Found) : f.gmin = f.g1 ∨ f.gmin = f.g2 ∨ f.gmin = f.g3 := by
  unfold Found.gmin
  dsimp only
  split_ifs <;> simp

theorem gmin_gt (f : Found) (x : ℝ) : (f.g1 > x ∧ f.g2 > x ∧ f.g3 > x) ↔ f.gmin > x := by
  obtain ⟨h1, h2, h3⟩ := gmin_le f
  constructor
  · rintro ⟨a, b, c⟩
    rcases gmin_mem f with h | h | h <;> linarith
  · intro h
    exact ⟨by linarith, by linarith, by linarith⟩

/-- If no triplet is inside, the search maximises the smallest gain over the triplets with
at most one negative gain. -/
theorem search_outside (is2D : Bool) (s : Vec ℝ) (is : List Inv) (j : ℕ) (c : Option Found)
    (h : ∀ (k : ℕ) (i : Inv), is[k]? = some i → ¬ Inside is2D (gainsOf s i (j + k))) :
    match search is2D s is j c with
    | none => c = none ∧ ∀ (k : ℕ) (i : Inv), is[k]? = some i → 1 < (gainsOf s i (j + k)).negatives
    | some f =>
      (c = some f ∨ ∃ (k : ℕ) (i : Inv), is[k]? = some i ∧ f = gainsOf s i (j + k) ∧ f.negatives ≤ 1) ∧
      (∀ b, c = some b → b.gmin ≤ f.gmin) ∧
      ∀ (k : ℕ) (i : Inv), is[k]? = some i → (gainsOf s i (j + k)).negatives ≤ 1 →
        (gainsOf s i (j + k)).gmin ≤ f.gmin := by
  induction is generalizing j c with
  | nil =>
    simp only [search]
    cases c with
    | none => simp
    | some f => simp
  | cons i is ih =>
    have hi : ¬ Inside is2D (gainsOf s i j) := h 0 i (by simp)
    have e : ¬ ((gainsOf s i j).g1 ≥ 0 ∧ (gainsOf s i j).g2 ≥ 0 ∧ ((gainsOf s i j).g3 ≥ 0 ∨ is2D = true)) := hi
    have h' : ∀ (k : ℕ) (i' : Inv), is[k]? = some i' → ¬ Inside is2D (gainsOf s i' (j + 1 + k)) := by
      intro k i' hk
      rw [show j + 1 + k = j + (k + 1) by omega]
      exact h (k + 1) i' (by simpa using hk)
    have hk1 : ∀ k : ℕ, j + (k + 1) = j + 1 + k := fun k => by omega
    simp only [search]
    rw [if_neg e]
    cases c with
    | none =>
      dsimp only
      by_cases hn : (gainsOf s i j).negatives ≤ 1
      · rw [if_pos hn]
        have ih := ih (j + 1) (some (gainsOf s i j)) h'
        cases hs : search is2D s is (j + 1) (some (gainsOf s i j)) with
        | none => rw [hs] at ih; exact absurd ih.1 (by simp)
        | some f =>
          rw [hs] at ih
          obtain ⟨h1, h2, h3⟩ := ih
          refine ⟨.inr ?_, by simp, ?_⟩
          · rcases h1 with h1 | ⟨k, i', a, b, d⟩
            · injection h1 with h1
              exact ⟨0, i, by simp, h1.symm, by rw [← h1]; exact hn⟩
            · exact ⟨k + 1, i', by simpa using a, by rw [hk1]; exact b, d⟩
          · intro k i' hk hneg
            cases k with
            | zero => simp at hk; subst hk; exact h2 _ rfl
            | succ k => rw [hk1] at hneg ⊢; exact h3 k i' (by simpa using hk) hneg
      · rw [if_neg hn]
        have ih := ih (j + 1) none h'
        cases hs : search is2D s is (j + 1) none with
        | none =>
          rw [hs] at ih
          refine ⟨rfl, ?_⟩
          intro k i' hk
          cases k with
          | zero => simp at hk; subst hk; simpa using hn
          | succ k => rw [hk1]; exact ih.2 k i' (by simpa using hk)
        | some f =>
          rw [hs] at ih
          obtain ⟨h1, h2, h3⟩ := ih
          refine ⟨.inr ?_, by simp, ?_⟩
          · rcases h1 with h1 | ⟨k, i', a, b, d⟩
            · cases h1
            · exact ⟨k + 1, i', by simpa using a, by rw [hk1]; exact b, d⟩
          · intro k i' hk hneg
            cases k with
            | zero => simp at hk; subst hk; exact absurd hneg hn
            | succ k => rw [hk1] at hneg ⊢; exact h3 k i' (by simpa using hk) hneg
    | some b =>
      dsimp only
      by_cases hn : (gainsOf s i j).negatives ≤ 1 ∧ (gainsOf s i j).g1 > b.gmin ∧ (gainsOf s i j).g2 > b.gmin ∧
          (gainsOf s i j).g3 > b.gmin
      · rw [if_pos hn]
        have ih := ih (j + 1) (some (gainsOf s i j)) h'
        cases hs : search is2D s is (j + 1) (some (gainsOf s i j)) with
        | none => rw [hs] at ih; exact absurd ih.1 (by simp)
        | some f =>
          rw [hs] at ih
          obtain ⟨h1, h2, h3⟩ := ih
          refine ⟨.inr ?_, ?_, ?_⟩
          · rcases h1 with h1 | ⟨k, i', a, b, d⟩
            · injection h1 with h1
              exact ⟨0, i, by simp, h1.symm, by rw [← h1]; exact hn.1⟩
            · exact ⟨k + 1, i', by simpa using a, by rw [hk1]; exact b, d⟩
          · intro b' hb'
            injection hb' with hb'
            subst hb'
            have := h2 _ rfl
            linarith [(gmin_gt _ _).mp hn.2]
          · intro k i' hk hneg
            cases k with
            | zero => simp at hk; subst hk; exact h2 _ rfl
            | succ k => rw [hk1] at hneg ⊢; exact h3 k i' (by simpa using hk) hneg
      · rw [if_neg hn]
        have ih := ih (j + 1) (some b) h'
        cases hs : search is2D s is (j + 1) (some b) with
        | none => rw [hs] at ih; exact absurd ih.1 (by simp)
        | some f =>
          rw [hs] at ih
          obtain ⟨h1, h2, h3⟩ := ih
          refine ⟨?_, h2, ?_⟩
          · rcases h1 with h1 | ⟨k, i', a, b, d⟩
            · exact .inl h1
            · exact .inr ⟨k + 1, i', by simpa using a, by rw [hk1]; exact b, d⟩
          · intro k i' hk hneg
            cases k with
            | zero =>
              simp only [List.getElem?_cons_zero, Option.some.injEq] at hk
              subst hk
              have h4 : ¬ (gainsOf s i j).gmin > b.gmin := fun h4 => hn ⟨hneg, (gmin_gt _ _).mpr h4⟩
              have := h2 b rfl
              rw [Nat.add_zero]
              linarith
            | succ k => rw [hk1] at hneg ⊢; exact h3 k i' (by simpa using hk) hneg

/-- The sum over all loudspeakers has three terms. -/
theorem sum_three (n l1 l2 l3 : ℕ) (h1 : l1 < n) (h2 : l2 < n) (h3 : l3 < n) (n12 : l1 ≠ l2) (n13 : l1 ≠ l3)
    (n23 : l2 ≠ l3) (a b c : ℝ) (F : ℕ → ℝ) :
    ∑ i ∈ Finset.range n,
      Function.update (Function.update (Function.update (fun _ => (0 : ℝ)) l1 a) l2 b) l3 c i * F i =
      a * F l1 + b * F l2 + c * F l3 := by
  have e : ∀ i, Function.update (Function.update (Function.update (fun _ => (0 : ℝ)) l1 a) l2 b) l3 c i * F i =
      (if i = l1 then a * F i else 0) + (if i = l2 then b * F i else 0) + (if i = l3 then c * F i else 0) := by
    intro i
    by_cases e3 : i = l3
    · subst e3; simp [n13.symm, n23.symm]
    · by_cases e2 : i = l2
      · subst e2; simp [Function.update_of_ne e3, e3, n12.symm]
      · by_cases e1 : i = l1
        · subst e1; simp [Function.update_of_ne e3, Function.update_of_ne e2, e3, e2]
        · simp [Function.update_of_ne e3, Function.update_of_ne e2, Function.update_of_ne e1, e1, e2, e3]
  simp only [e, Finset.sum_add_distrib, Finset.sum_ite_eq', Finset.mem_range, h1, h2, h3, if_true]

theorem sum_two (n l1 l2 : ℕ) (h1 : l1 < n) (h2 : l2 < n) (n12 : l1 ≠ l2) (a b : ℝ) (F : ℕ → ℝ) :
    ∑ i ∈ Finset.range n, Function.update (Function.update (fun _ => (0 : ℝ)) l1 a) l2 b i * F i =
      a * F l1 + b * F l2 := by
  have e : ∀ i, Function.update (Function.update (fun _ => (0 : ℝ)) l1 a) l2 b i * F i =
      (if i = l1 then a * F i else 0) + (if i = l2 then b * F i else 0) := by
    intro i
    by_cases e2 : i = l2
    · subst e2; simp [n12.symm]
    · by_cases e1 : i = l1
      · subst e1; simp [Function.update_of_ne e2, e2]
      · simp [Function.update_of_ne e2, Function.update_of_ne e1, e1, e2]
  simp only [e, Finset.sum_add_distrib, Finset.sum_ite_eq', Finset.mem_range, h1, h2, if_true]

theorem foldl_squares (g : List ℝ) (x : ℝ) : g.foldl (fun acc x => acc + x * x) x = x + power g := by
  induction g generalizing x with
  | nil => simp [power]
  | cons a g ih => simp only [List.foldl_cons, ih, power, List.map_cons, List.sum_cons]; ring

theorem power_nonneg (g : List ℝ) : 0 ≤ power g := by
  induction g with
  | nil => simp [power]
  | cons a g ih =>
    have : power (a :: g) = a ^ 2 + power g := by simp [power]
    rw [this]; positivity

theorem power_scale (k : ℝ) (g : List ℝ) : power (g.map fun x => k * x) = k ^ 2 * power g := by
  induction g with
  | nil => simp [power]
  | cons a g ih =>
    have h1 : power (a :: g) = a ^ 2 + power g := by simp [power]
    have h2 : power ((a :: g).map fun x => k * x) = (k * a) ^ 2 + power (g.map fun x => k * x) := by
      simp [power]
    rw [h2, ih, h1]; ring

theorem power_range (n : ℕ) (f : ℕ → ℝ) :
    power ((List.range n).map f) = ∑ i ∈ Finset.range n, f i * f i := by
  induction n with
  | zero => simp [power]
  | succ n ih =>
    rw [Finset.sum_range_succ, ← ih, List.range_succ]
    simp [power]
    ring

theorem direction_norm {p l : Vec ℝ} (h : 0 < (l.sub p).norm) :
    (direction p l).x ^ 2 + (direction p l).y ^ 2 + (direction p l).z ^ 2 = 1 := by
  have e : (l.sub p).norm ^ 2 = (l.sub p).x * (l.sub p).x + (l.sub p).y * (l.sub p).y + (l.sub p).z * (l.sub p).z := by
    unfold Vec.norm
    rw [Real.sq_sqrt]
    · rfl
    · unfold Vec.normSquare; nlinarith [sq_nonneg (l.sub p).x, sq_nonneg (l.sub p).y, sq_nonneg (l.sub p).z]
  simp only [direction, Vec.scale]
  field_simp
  nlinarith

theorem direction_z {p l : Vec ℝ} (h : l.z = p.z) : (direction p l).z = 0 := by
  simp [direction, Vec.scale, Vec.sub, h]

theorem cauchy3 (a b c x y z : ℝ) : (a * x + b * y + c * z) ^ 2 ≤ (a ^ 2 + b ^ 2 + c ^ 2) * (x ^ 2 + y ^ 2 + z ^ 2) := by
  nlinarith [sq_nonneg (a * y - b * x), sq_nonneg (a * z - c * x), sq_nonneg (b * z - c * y)]

end Visr.Vbap
