import Mathlib.Data.Real.Basic
import Verif.Biquad.Model

/-!
# Model of the crossover of the renderer with frequency-dependent panning

Models the coefficients and the filter bank of `/repo/src/libsignalflows/core_renderer.cpp:52-63,163-179`. Each object signal is
filtered by the low pass for the panning gains of low frequencies, and by the high pass for those of high frequencies.
Coefficients are the exact values of the nearest floating-point numbers of single precision; the calculations of the filter
are exact.
-/

namespace Visr.Crossover
open Visr.Biquad

/-- A decimal literal with 15 digits after the point, and the floating-point number `mantissa / 2 ^ exponent` which it
denotes. -/
structure Literal where
  digits : ℤ
  mantissa : ℤ
  exponent : ℕ

/-- `0.001921697757295f` (`core_renderer.cpp:55`) -/
def low0 : Literal := ⟨1921697757295, 16507258, 33⟩

/-- `0.003843395514590f` (`core_renderer.cpp:55`) -/
def low1 : Literal := ⟨3843395514590, 16507258, 32⟩

/-- `-0.914247351285939f` (`core_renderer.cpp:61`) -/
def high0 : Literal := ⟨-914247351285939, -15338525, 24⟩

/-- `1.828494702571878f` (`core_renderer.cpp:61`) -/
def high1 : Literal := ⟨1828494702571878, 15338525, 23⟩

/-- `-1.824651307057289f` (`core_renderer.cpp:56,62`) -/
def den1 : Literal := ⟨-1824651307057289, -15306285, 23⟩

/-- `0.832338098086468f` (`core_renderer.cpp:56,62`) -/
def den2 : Literal := ⟨832338098086468, 13964316, 24⟩

/-- The value of a floating-point number. -/
noncomputable def Literal.value (l : Literal) : ℝ := l.mantissa / 2 ^ l.exponent

/-- `lowpass` (`core_renderer.cpp:54-57`). -/
noncomputable def lowpass : Coef ℝ := ⟨low0.value, low1.value, low0.value, den1.value, den2.value⟩

/-- `highpass` (`core_renderer.cpp:60-63`). -/
noncomputable def highpass : Coef ℝ := ⟨high0.value, high1.value, high0.value, den1.value, den2.value⟩

/-- `coeffMatrix` (`core_renderer.cpp:164-170`). -/
noncomputable def coeffMatrix (n : Nat) : List (List (Coef ℝ)) :=
  (List.range (2 * n)).map fun ch => if ch < n then [lowpass] else [highpass]

/-- `mPanningFilterbank` for `n` objects (`core_renderer.cpp:171-172`). -/
noncomputable def bank (n : Nat) : Outcome (Filter ℝ) := Filter.createMatrix (2 * n) 1 (coeffMatrix n)

/-- The input of the filter bank (`core_renderer.cpp:176-177`): each object signal twice. -/
def bankInput (n : Nat) (objects : Nat → List ℝ) (ch : Nat) : List ℝ := if ch < n then objects ch else objects (ch - n)

end Visr.Crossover
