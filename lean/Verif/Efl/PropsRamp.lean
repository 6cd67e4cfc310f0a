import Verif.Efl.Ramp
import Mathlib.Tactic.Linarith
import Mathlib.Tactic.Ring
import Mathlib.Tactic.FieldSimp
import Mathlib.Tactic.NormNum
import Mathlib.Tactic.SplitIfs

/-!
# C20: vector ramps

Specification: the documentation (`src/libefl/vector_functions.hpp:46-60`) describes the result of `vectorRamp` as
points of a straight line whose value is `startVal` at the first sample (start inclusive) or at the position before it
(start exclusive), and `endVal` at the last sample (end inclusive) or at the position after it (end exclusive).
-/

namespace Visr.Efl

variable {K : Type*} [Field K] [LinearOrder K] [IsStrictOrderedRing K]

/-- The documented meaning of a ramp of `n` samples `d`: its samples lie on one straight line through both end points. -/
def IsRamp (d : List K) (n : Nat) (startVal endVal : K) (si ei : Bool) : Prop :=
  ∃ offset slope : K,
    (∀ i < n, d[i]? = some (offset + slope * (i : K))) ∧
    offset + slope * (if si then 0 else -1) = startVal ∧
    offset + slope * (if ei then (n : K) - 1 else (n : K)) = endVal

/-- **C20.** Ramps of two or more elements, and ramps of one element that include exactly one of the end points, are
exactly the documented straight line. Elements behind the ramp are untouched. -/
theorem vectorRamp_on_line (dest : List K) (n : Nat) (s e : K) (si ei : Bool) (hlen : n ≤ dest.length)
    (h : 2 ≤ n ∨ (n = 1 ∧ si ≠ ei)) :
    IsRamp (vectorRamp dest n s e si ei) n s e si ei ∧
    (vectorRamp dest n s e si ei).length = dest.length ∧
    ∀ i, n ≤ i → (vectorRamp dest n s e si ei)[i]? = dest[i]? := by
  rcases h with h | ⟨rfl, hne⟩
  · have h0 : n ≠ 0 := by omega
    have h1 : n ≠ 1 := by omega
    have hn : (2 : K) ≤ n := by exact_mod_cast h
    simp only [vectorRamp, h0, h1, if_false]
    refine ⟨?_, by simp; omega, ?_⟩
    · refine ⟨s + (if si then 0 else 1) * ((e - s) / ((n + 1 - (if si then 1 else 0) - (if ei then 1 else 0) : Nat) : K)),
        (e - s) / ((n + 1 - (if si then 1 else 0) - (if ei then 1 else 0) : Nat) : K), ?_, ?_, ?_⟩
      · intro i hi
        rw [List.getElem?_append_left (by simpa using hi)]
        simp [hi]
        cases si <;> simp <;> ring
      · cases si <;> simp
      · have hc : ((n + 1 - (if si then 1 else 0) - (if ei then 1 else 0) : Nat) : K)
            = n + 1 - (if si then 1 else 0) - (if ei then 1 else 0) := by
          cases si <;> cases ei <;> simp
          rw [Nat.cast_sub (by omega)]; simp
        rw [hc]
        have hp : (0 : K) < n + 1 - (if si then 1 else 0) - (if ei then 1 else 0) := by
          cases si <;> cases ei <;> simp <;> linarith
        have := ne_of_gt hp
        cases si <;> cases ei <;> simp at this ⊢ <;> field_simp <;> ring
    · intro i hi
      rw [List.getElem?_append_right (by simpa using hi)]
      simp
      congr 1; omega
  · obtain ⟨x, l, rfl⟩ : ∃ x l, dest = x :: l := by
      cases dest with
      | nil => simp at hlen
      | cons x l => exact ⟨x, l, rfl⟩
    simp only [vectorRamp, hne, if_false]
    refine ⟨⟨if si then s else e, e - s, ?_, ?_, ?_⟩, by simp, ?_⟩
    · intro i hi
      obtain rfl : i = 0 := by omega
      simp
    · cases si <;> cases ei <;> simp at hne ⊢
    · cases si <;> cases ei <;> simp at hne ⊢
    · intro i hi
      obtain ⟨j, rfl⟩ : ∃ j, i = j + 1 := ⟨i - 1, by omega⟩
      simp

example : IsRamp (vectorRamp [0, 0, 0, 7] 3 1 (5 : ℚ) false false) 3 1 5 false false :=
  (vectorRamp_on_line _ 3 _ _ _ _ (by simp) (by simp)).1

example : vectorRamp [0, 0, 0, 7] 3 1 (5 : ℚ) false false = [2, 3, 4, 7] := by
  simp [vectorRamp, List.range, List.range.loop]; norm_num

/-- **C20 (negation).** For a single element with both ends exclusive the documentation and the comment in the code
ask for the midpoint; the code always yields the end value. -/
theorem vectorRamp_single_exclusive (x s e : K) (l : List K) :
    vectorRamp (x :: l) 1 s e false false = e :: l ∧
    (s ≠ e → ¬ IsRamp (vectorRamp (x :: l) 1 s e false false) 1 s e false false) := by
  refine ⟨by simp [vectorRamp], ?_⟩
  rintro hne ⟨o, m, h0, h1, h2⟩
  have := h0 0 (by omega)
  simp [vectorRamp] at this h1 h2
  have : m = 0 := by linarith
  subst this
  simp at h1 h2
  exact hne (h1 ▸ h2)

omit [LinearOrder K] [IsStrictOrderedRing K] in
/-- With both ends inclusive a single sample cannot meet both end points unless they agree. The code yields the start
value, not the midpoint named in its comment. -/
theorem vectorRamp_single_inclusive (x s e : K) (l : List K) :
    vectorRamp (x :: l) 1 s e true true = s :: l := by simp [vectorRamp]

end Visr.Efl
