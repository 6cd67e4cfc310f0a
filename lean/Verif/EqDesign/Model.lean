import Verif.Biquad.Model
import Verif.Encode.Model
import Mathlib.Analysis.SpecialFunctions.Trigonometric.Basic
import Mathlib.Analysis.SpecialFunctions.Pow.Real

/-!
# Design of equaliser filters

Models `/repo/src/librbbl/parametric_iir_coefficient_calculator.cpp` and
`/repo/src/libefl/db_linear_conversion.hpp` over the real numbers.
-/

namespace Visr.EqDesign
open Visr Visr.Biquad Visr.Encode

/-- `efl::dB2linear` (`db_linear_conversion.hpp:25-29`). -/
noncomputable def dB2linear (dB : ℝ) : ℝ := (10 : ℝ) ^ (0.05 * dB)

/-- `ParametricIirCoefficientCalculator::calculateIirCoefficients( param, coeffs, samplingFrequency )`
(`parametric_iir_coefficient_calculator.cpp:43-195`). -/
noncomputable def design (p : Section ℝ) (samplingFrequency : ℝ) : Coef ℝ :=
  let w0 := 2 * Real.pi * p.f / samplingFrequency
  let alpha := Real.sin w0 / (2 * p.q)
  let cw0 := Real.cos w0
  match p.typ with
  | .lowpass =>
    let a0 := 1 + alpha
    { b0 := (1 - cw0) / (2 * a0), b1 := (1 - cw0) / a0, b2 := (1 - cw0) / (2 * a0),
      a1 := (-2 * cw0) / a0, a2 := (1 - alpha) / a0 }
  | .highpass =>
    let a0 := 1 + alpha
    { b0 := (1 + cw0) / (2 * a0), b1 := -(1 + cw0) / a0, b2 := (1 + cw0) / (2 * a0),
      a1 := (-2 * cw0) / a0, a2 := (1 - alpha) / a0 }
  | .bandpass =>
    let a0 := 1 + alpha
    { b0 := alpha / a0, b1 := 0, b2 := -(alpha / a0), a1 := (-2 * cw0) / a0, a2 := (1 - alpha) / a0 }
  | .bandstop =>
    let a0 := 1 + alpha
    { b0 := 1 / a0, b1 := (-2 * cw0) / a0, b2 := 1 / a0, a1 := (-2 * cw0) / a0, a2 := (1 - alpha) / a0 }
  | .allpass =>
    let a0 := 1 + alpha
    { b0 := (1 - alpha) / a0, b1 := (-2 * cw0) / a0, b2 := 1, a1 := (-2 * cw0) / a0, a2 := (1 - alpha) / a0 }
  | .peak =>
    let A := Real.sqrt (dB2linear p.gain)
    let a0 := 1 + alpha / A
    { b0 := (1 + A * alpha) / a0, b1 := (-2 * cw0) / a0, b2 := (1 - A * alpha) / a0,
      a1 := (-2 * cw0) / a0, a2 := (1 - alpha / A) / a0 }
  | .lowshelf =>
    let A := Real.sqrt (dB2linear p.gain)
    let Asqrt := Real.sqrt A
    let a0 := (A + 1) + (A - 1) * cw0 + 2 * Asqrt * alpha
    { b0 := A * ((A + 1) - (A - 1) * cw0 + 2 * Asqrt * alpha) / a0
      b1 := (2 * A * ((A - 1) - (A + 1) * cw0)) / a0
      b2 := A * ((A + 1) - (A - 1) * cw0 - 2 * Asqrt * alpha) / a0
      a1 := (-2 * ((A - 1) + (A + 1) * cw0)) / a0
      a2 := ((A + 1) + (A - 1) * cw0 - 2 * Asqrt * alpha) / a0 }
  | .highshelf =>
    let A := Real.sqrt (dB2linear p.gain)
    let Asqrt := Real.sqrt A
    let a0 := (A + 1) - (A - 1) * cw0 + 2 * Asqrt * alpha
    { b0 := A * ((A + 1) + (A - 1) * cw0 + 2 * Asqrt * alpha) / a0
      b1 := (-2 * A * ((A - 1) + (A + 1) * cw0)) / a0
      b2 := A * ((A + 1) + (A - 1) * cw0 - 2 * Asqrt * alpha) / a0
      a1 := (2 * ((A - 1) - (A + 1) * cw0)) / a0
      a2 := ((A + 1) - (A - 1) * cw0 - 2 * Asqrt * alpha) / a0 }

/-- `calculateIirCoefficients( params, coeffs, samplingFrequency )` for lists
(`parametric_iir_coefficient_calculator.cpp:211-225`). `coeffs` is the previous content of the output argument. -/
noncomputable def designList (params : List (Section ℝ)) (coeffs : List (Coef ℝ)) (samplingFrequency : ℝ) :
    Outcome (List (Coef ℝ)) :=
  if params.length > coeffs.length then .throw .invalidArgument
  else .ok (params.map (fun p => design p samplingFrequency)
    ++ List.replicate (coeffs.length - params.length) Coef.flat)

/-- The default constructor of `ParametricIirCoefficient` (`parametric_iir_coefficient.cpp:93-100`). -/
def defaultSection : Section ℝ := ⟨.allpass, 1, 1, 0⟩

end Visr.EqDesign
