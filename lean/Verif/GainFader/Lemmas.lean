import Verif.GainFader.Model
import Verif.GainFader.Spec
import Mathlib.Tactic.Linarith
import Mathlib.Tactic.Ring
import Mathlib.Tactic.FieldSimp
import Mathlib.Tactic.NormNum
import Mathlib.Tactic.SplitIfs

set_option linter.unusedSectionVars false

namespace Visr.GainFader
open Visr Visr.Efl

variable {K : Type*} [Field K] [LinearOrder K] [IsStrictOrderedRing K]

theorem ceil_bounds {b s : Nat} (hb : 0 < b) :
    s ≤ (s + b - 1) / b * b ∧ (s + b - 1) / b * b < s + b := by
  have h1 := Nat.div_add_mod (s + b - 1) b
  have h2 := Nat.mod_lt (s + b - 1) hb
  rw [Nat.mul_comm] at h1
  constructor <;> omega

theorem ceil_eq_zero {b s : Nat} (hb : 0 < b) : (s + b - 1) / b = 0 ↔ s = 0 := by
  rw [Nat.div_eq_zero_iff]; omega

theorem vectorRamp_get (junk : K) (size steps i : Nat) (hs : steps ≤ size) (hi : i < steps) :
    (vectorRamp (List.replicate size junk) steps 0 1 false true)[i]? = some (((i : K) + 1) / (steps : K)) := by
  unfold vectorRamp
  by_cases h0 : steps = 0
  · omega
  by_cases h1 : steps = 1
  · subst h1
    obtain rfl : i = 0 := by omega
    obtain ⟨m, rfl⟩ : ∃ m, size = m + 1 := ⟨size - 1, by omega⟩
    simp [List.replicate_succ]
  · simp only [h0, h1, if_false]
    rw [List.getElem?_append_left (by simpa using hi)]
    simp [hi]
    ring

theorem vectorRamp_length (junk : K) (size steps : Nat) (hs : steps ≤ size) :
    (vectorRamp (List.replicate size junk) steps (0 : K) 1 false true).length = size := by
  unfold vectorRamp
  by_cases h0 : steps = 0
  · simp [h0]
  by_cases h1 : steps = 1
  · simp [h1]
  · simp [h0, h1]; omega

/-- The stored ramp holds the progress of the transition at every sample. -/
theorem setupRamp_get (junk : K) (size periods steps i : Nat) (hs : steps ≤ size) (hp : periods = 0 ↔ steps = 0)
    (hi : i < size) : (setupRamp junk size periods steps)[i]? = some (progress steps i) := by
  unfold setupRamp vectorFillAt
  have hlen : (if periods > 0 then vectorRamp (List.replicate size junk) steps (0 : K) 1 false true
      else List.replicate size junk).length = size := by
    split_ifs
    · exact vectorRamp_length junk size steps hs
    · simp
  simp only
  by_cases h : i < steps
  · rw [List.append_assoc, List.getElem?_append_left (by simp [hlen]; omega), List.getElem?_take_of_lt h]
    have : periods > 0 := by omega
    rw [if_pos this, vectorRamp_get _ _ _ _ hs h]
    simp [progress, h]
  · rw [List.append_assoc, List.getElem?_append_right (by simp [hlen]; omega)]
    rw [List.getElem?_append_left (by simp [hlen]; omega)]
    simp only [List.length_take, hlen, progress, h, if_false]
    rw [List.getElem?_replicate]
    simp; omega

/-- A correctly constructed fader. -/
structure Good (f : Fader K) (b s : Nat) : Prop where
  pos : 0 < b
  block : f.blockSize = b
  samples : f.interpolationSamples = s
  periods : f.interpolationPeriods = (s + b - 1) / b
  ramp : ∀ i < (f.interpolationPeriods + 1) * b, f.ramp[i]? = some (progress s i)

theorem mk_good {junk : K} {b s : Nat} {f : Fader K} (h : mk junk b s = .ok f) : Good f b s := by
  unfold mk at h
  by_cases hb : b = 0
  · simp [hb] at h
  · simp [hb] at h
    subst h
    have hb' : 0 < b := by omega
    refine ⟨hb', rfl, rfl, rfl, ?_⟩
    intro i hi
    apply setupRamp_get _ _ _ _ _ _ _ hi
    · have := (ceil_bounds (s := s) hb').1
      show s ≤ ((s + b - 1) / b + 1) * b
      rw [Nat.add_mul]; omega
    · exact ceil_eq_zero hb'

theorem mk_ok (junk : K) {b : Nat} (s : Nat) (hb : 0 < b) : ∃ f, mk junk b s = .ok f := by
  simp [mk, Nat.pos_iff_ne_zero.mp hb]

theorem progress_late {s t : Nat} (h : s ≤ t) : progress (K := K) s t = 1 := by
  simp [progress, Nat.not_lt.mpr h]

/-- Reading the ramp at block `n` gives the progress at the time of the sample. -/
theorem Good.ramp_at {f : Fader K} {b s : Nat} (g : Good f b s) (n i : Nat) (hi : i < b) :
    (f.ramp.drop (min n f.interpolationPeriods * f.blockSize)).getD i 0 = progress s (n * b + i) := by
  have hc := ceil_bounds (s := s) g.pos
  rw [← g.periods] at hc
  rw [List.getD_eq_getElem?_getD, List.getElem?_drop, g.block]
  have hlt : min n f.interpolationPeriods * b + i < (f.interpolationPeriods + 1) * b := by
    have : min n f.interpolationPeriods * b ≤ f.interpolationPeriods * b :=
      Nat.mul_le_mul_right b (Nat.min_le_right _ _)
    rw [Nat.add_mul]; omega
  rw [g.ramp _ hlt]
  simp only [Option.getD_some]
  by_cases h : n ≤ f.interpolationPeriods
  · rw [Nat.min_eq_left h]
  · rw [Nat.min_eq_right (by omega), progress_late (by omega), progress_late]
    have : f.interpolationPeriods * b ≤ n * b := Nat.mul_le_mul_right b (by omega)
    omega

theorem Good.scale {f : Fader K} {b s : Nat} (g : Good f b s) (input : List K) (g₀ g₁ : K) (n : Nat) :
    GainFader.scale f input g₀ g₁ n =
      (List.range b).map (fun i => gainAt s g₀ g₁ (n * b + i) * input.getD i 0) := by
  unfold GainFader.scale vectorRampScaling
  simp only [Bool.false_eq_true, if_false]
  rw [g.block]
  apply List.map_congr_left
  intro i hi
  have := g.ramp_at n i (by simpa using hi)
  rw [g.block] at this
  rw [this]
  rfl

theorem Good.scaleAndAccumulate {f : Fader K} {b s : Nat} (g : Good f b s) (input output : List K) (g₀ g₁ : K)
    (n : Nat) :
    GainFader.scaleAndAccumulate f input output g₀ g₁ n =
      (List.range b).map (fun i => output.getD i 0 + gainAt s g₀ g₁ (n * b + i) * input.getD i 0) := by
  unfold GainFader.scaleAndAccumulate vectorRampScaling
  simp only [if_true]
  rw [g.block]
  apply List.map_congr_left
  intro i hi
  have := g.ramp_at n i (by simpa using hi)
  rw [g.block] at this
  rw [this]
  rfl

end Visr.GainFader
