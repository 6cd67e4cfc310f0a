import Verif.Cap.Spec
import Mathlib.Tactic.Linarith
import Mathlib.Tactic.LinearCombination
import Mathlib.Tactic.Positivity
import Mathlib.Tactic.FieldSimp
import Mathlib.Tactic.Ring
import Mathlib.Tactic.NormNum
import Mathlib.Algebra.Order.BigOperators.Group.List

/-!
# Lemmas for compensated amplitude panning
-/

namespace Visr.Cap
open Visr Visr.Rotation

theorem foldl_add (a : List ℝ) (x : ℝ) : a.foldl (fun (acc x : ℝ) => acc + x) x = x + a.sum := by
  induction a generalizing x with
  | nil => simp
  | cons y a ih => rw [List.foldl_cons, ih, List.sum_cons]; ring

theorem foldl_sq (a : List ℝ) (x : ℝ) : a.foldl (fun (acc x : ℝ) => acc + x * x) x = x + energy a := by
  induction a generalizing x with
  | nil => simp [energy]
  | cons y a ih =>
    rw [List.foldl_cons, ih]
    simp only [energy, List.map_cons, List.sum_cons]
    ring

/-- Sum of products. -/
def dotp (h a : List ℝ) : ℝ := ((h.zip a).map fun p => p.1 * p.2).sum

theorem balanced_iff (axis : Vec ℝ) (r : List (Vec ℝ)) (image : Vec ℝ) (g : List ℝ) (hl : g.length = r.length) :
    Balanced axis r image g ↔ dotp g (r.map fun v => axis.dot (v.sub image)) = 0 := by
  have key : ((g.zip r).map fun p => p.1 * axis.dot p.2).sum - total g * axis.dot image =
      dotp g (r.map fun v => axis.dot (v.sub image)) := by
    induction r generalizing g with
    | nil =>
      rw [List.length_nil, List.length_eq_zero_iff] at hl
      subst hl
      simp [dotp, total]
    | cons v r ih =>
      cases g with
      | nil => simp at hl
      | cons x g =>
        have h := ih g (by simpa using hl)
        simp only [dotp, total, List.zip_cons_cons, List.map_cons, List.sum_cons] at h ⊢
        simp only [Vec.dot, Vec.sub] at h ⊢
        linear_combination h
  unfold Balanced
  rw [← key, sub_eq_zero]

theorem dotp_line (α β : ℝ) (a : List ℝ) : dotp (a.map fun x => α + β * x) a = α * a.sum + β * energy a := by
  induction a with
  | nil => simp [dotp, energy]
  | cons x a ih =>
    simp only [dotp, energy, List.map_cons, List.zip_cons_cons, List.sum_cons] at ih ⊢
    linear_combination ih

theorem total_line (α β : ℝ) (a : List ℝ) : total (a.map fun x => α + β * x) = α * a.length + β * a.sum := by
  induction a with
  | nil => simp [total]
  | cons x a ih =>
    simp only [total, List.map_cons, List.sum_cons, List.length_cons, Nat.cast_add, Nat.cast_one] at ih ⊢
    linear_combination ih

/-- Gains that are a linear function of the interaural components have the least energy. -/
theorem energy_line (α β : ℝ) : ∀ (a h : List ℝ), h.length = a.length →
    energy (a.map fun x => α + β * x) +
      2 * (α * (h.sum - (a.map fun x => α + β * x).sum) + β * (dotp h a - dotp (a.map fun x => α + β * x) a)) ≤ energy h
  | [], [], _ => by simp [energy, dotp]
  | [], _ :: _, h => by simp at h
  | _ :: _, [], h => by simp at h
  | x :: a, y :: h, hl => by
    have ih := energy_line α β a h (by simpa using hl)
    simp only [energy, dotp, List.map_cons, List.zip_cons_cons, List.sum_cons] at ih ⊢
    have := sq_nonneg (y - (α + β * x))
    nlinarith

theorem sum_sq_shift (a : List ℝ) (m : ℝ) :
    (a.map fun x => (x - m) ^ 2).sum = energy a - 2 * m * a.sum + a.length * m ^ 2 := by
  induction a with
  | nil => simp [energy]
  | cons x a ih =>
    simp only [energy, List.map_cons, List.sum_cons, List.length_cons, Nat.cast_add, Nat.cast_one] at ih ⊢
    rw [ih]
    ring

/-- The divisor of the gains. -/
theorem spread_pos (a : List ℝ) {x y : ℝ} (hx : x ∈ a) (hy : y ∈ a) (hne : x ≠ y) :
    0 < energy a * a.length - a.sum * a.sum := by
  have hn : 0 < (a.length : ℝ) := by
    have := List.length_pos_of_mem hx
    exact_mod_cast this
  have hshift := sum_sq_shift a (a.sum / a.length)
  have hex : ∃ z ∈ a, z ≠ a.sum / a.length := by
    by_contra hc
    simp only [not_exists, not_and, not_not] at hc
    exact hne ((hc x hx).trans (hc y hy).symm)
  obtain ⟨z, hz, hzne⟩ := hex
  have h1 : (z - a.sum / a.length) ^ 2 ≤ (a.map fun x => (x - a.sum / a.length) ^ 2).sum :=
    List.single_le_sum (by
      intro w hw
      obtain ⟨u, -, rfl⟩ := List.mem_map.1 hw
      positivity) _ (List.mem_map_of_mem hz)
  have h2 : 0 < (z - a.sum / a.length) ^ 2 := by
    have := sub_ne_zero.2 hzne
    positivity
  rw [hshift] at h1
  have h3 : (energy a - 2 * (a.sum / a.length) * a.sum + a.length * (a.sum / a.length) ^ 2) * a.length =
      energy a * a.length - a.sum * a.sum := by
    field_simp
    ring
  rw [← h3]
  exact mul_pos (lt_of_lt_of_le h2 h1) hn

theorem spread_zero (a : List ℝ) (t : ℝ) (h : ∀ x ∈ a, x = t) : energy a * a.length - a.sum * a.sum = 0 := by
  have e : a = List.replicate a.length t := List.eq_replicate_iff.2 ⟨rfl, h⟩
  have h1 : energy a = a.length * t ^ 2 := by
    rw [e]; simp [energy]
  have h2 : a.sum = a.length * t := by
    conv_lhs => rw [e]
    simp
  rw [h1, h2]
  ring

theorem gMax_spec (g : List ℝ) : ∀ m : ℝ, m ≤ g.foldl (fun m x => if x > m then x else m) m ∧
    (∀ x ∈ g, x ≤ g.foldl (fun m x => if x > m then x else m) m) ∧
    (g.foldl (fun m x => if x > m then x else m) m = m ∨ g.foldl (fun m x => if x > m then x else m) m ∈ g) := by
  induction g with
  | nil => intro m; simp
  | cons y g ih =>
    intro m
    rw [List.foldl_cons]
    obtain ⟨h1, h2, h3⟩ := ih (if y > m then y else m)
    have hm : m ≤ (if y > m then y else m) := by split_ifs with h <;> linarith
    have hy : y ≤ (if y > m then y else m) := by split_ifs with h <;> linarith
    refine ⟨hm.trans h1, ?_, ?_⟩
    · intro x hx
      rcases List.mem_cons.1 hx with rfl | hx
      · exact hy.trans h1
      · exact h2 x hx
    · rcases h3 with h3 | h3
      · by_cases hlt : y > m
        · right
          rw [h3, if_pos hlt]
          simp
        · left
          rw [h3, if_neg hlt]
      · right
        exact List.mem_cons_of_mem _ h3

theorem Vec.dot_sub (u v w : Vec ℝ) : u.dot (v.sub w) = u.dot v - u.dot w := by
  simp only [Vec.dot, Vec.sub]; ring

end Visr.Cap
