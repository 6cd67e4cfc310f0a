import Mathlib.Analysis.SpecialFunctions.Trigonometric.Basic
import Mathlib.Algebra.BigOperators.Group.Finset.Basic

/-!
# What the decorrelation filters shall do

Independent of the model: the frequency response and the energy of a finite impulse response.
-/

namespace Visr.Decorrelation
open Finset

/-- The frequency response of the FIR filter with the coefficients `h` at the normalised angular frequency `ω` (`ω = π` is half
the sampling frequency). -/
noncomputable def response (h : List ℝ) (ω : ℝ) : ℂ :=
  ∑ n ∈ range h.length, (h.getD n 0 : ℂ) * Complex.exp (-((ω * n : ℝ) : ℂ) * Complex.I)

/-- The energy of an impulse response. -/
def energy (h : List ℝ) : ℝ := (h.map fun x => x ^ 2).sum

end Visr.Decorrelation
