import Verif.LateFilter.Model
import Verif.Biquad.Spec

/-!
# Specification of C64: late reverberation filters
-/

namespace Visr.LateFilter
open Visr
open Visr.Reverb (Late)

/-- `m` samples are the duration `x` (in samples), rounded to nearest. -/
def Nearest (x : ℝ) (m : ℕ) : Prop := (m : ℝ) - 1 / 2 ≤ x ∧ x < m + 1 / 2

/-- The envelope of a band: silence for `d` samples, a linear attack over `a` samples, then exponential decay. -/
noncomputable def envelope (d a : ℕ) (gain decay fs : ℝ) (k : ℕ) : ℝ :=
  if k < d then 0
  else if k < d + a then gain * ((k - d) / a)
  else gain * Real.exp (decay * ((k - d - a) / fs))

/-- The noise of a band: filtered white noise without the first samples. -/
noncomputable def noise (align : ℕ) (raw : ℕ → ℕ → ℝ) (obj b k : ℕ) : ℝ :=
  Biquad.iir (fun _ => octaveBands.getD b Biquad.Coef.flat) (raw (obj * 9 + b)) (extra align + k)

/-- The late reverberation filter for onset `d` and attack times `a`. -/
noncomputable def tail (align : ℕ) (fs : ℝ) (raw : ℕ → ℕ → ℝ) (obj : ℕ) (late : Late) (d : ℕ) (a : Fin 9 → ℕ) (k : ℕ) : ℝ :=
  ∑ b : Fin 9, noise align raw obj b k * envelope d (a b) (late.levels b) (late.decays b) fs k

/-- The parameters can be realised with a filter of `len` samples: onset `d` and attack times `a` samples. -/
structure Fits (len : ℕ) (fs : ℝ) (late : Late) (d : ℕ) (a : Fin 9 → ℕ) : Prop where
  onset : 0 ≤ late.onset * fs
  attack : ∀ b, 0 ≤ late.attacks b * fs
  nearOnset : Nearest (late.onset * fs) d
  nearAttack : ∀ b, Nearest (late.attacks b * fs) (a b)
  short : ∀ b, d + a b < len

end Visr.LateFilter
