import Verif.EqDesign.Model
import Verif.Biquad.Spec
import Mathlib.Analysis.SpecialFunctions.Trigonometric.Arctan

/-!
# What an equaliser is expected to do

An equaliser section imitates a standard analogue second-order filter. The frequency axis is warped such that the
frequency of the setting is met exactly (bilinear transform). Filters are judged by what they do to signals: they keep
bounded signals bounded, and a sinusoid at the input yields, after the transient has died away, a sinusoid at the
output, scaled and shifted by the complex gain of the filter.
-/

namespace Visr.EqDesign
open Visr Visr.Biquad Visr.Encode Filter Topology

/-- Amplitude factor of half the gain, which is given in decibel. -/
noncomputable def halfGain (p : Section ℝ) : ℝ := (10 : ℝ) ^ (p.gain / 40)

/-- Transfer functions of the analogue filters, for a characteristic frequency of 1. -/
noncomputable def prototype (p : Section ℝ) (s : ℂ) : ℂ :=
  let Q : ℂ := p.q
  let A : ℂ := halfGain p
  let r : ℂ := Real.sqrt (halfGain p)
  match p.typ with
  | .lowpass => 1 / (s ^ 2 + s / Q + 1)
  | .highpass => s ^ 2 / (s ^ 2 + s / Q + 1)
  | .bandpass => (s / Q) / (s ^ 2 + s / Q + 1)
  | .bandstop => (s ^ 2 + 1) / (s ^ 2 + s / Q + 1)
  | .allpass => (s ^ 2 - s / Q + 1) / (s ^ 2 + s / Q + 1)
  | .peak => (s ^ 2 + s * (A / Q) + 1) / (s ^ 2 + s / (A * Q) + 1)
  | .lowshelf => A * (s ^ 2 + (r / Q) * s + A) / (A * s ^ 2 + (r / Q) * s + 1)
  | .highshelf => A * (A * s ^ 2 + (r / Q) * s + 1) / (s ^ 2 + (r / Q) * s + A)

/-- Limit of the transfer function towards infinite frequency, which is half the sampling frequency of the digital
filter. -/
noncomputable def prototypeTop (p : Section ℝ) : ℝ :=
  match p.typ with
  | .lowpass => 0
  | .highpass => 1
  | .bandpass => 0
  | .bandstop => 1
  | .allpass => 1
  | .peak => 1
  | .lowshelf => 1
  | .highshelf => (halfGain p) ^ 2

/-- Position on the analogue frequency axis of a tone at `tone` Hz for a setting at `centre` Hz. -/
noncomputable def warped (tone centre fs : ℝ) : ℂ :=
  Complex.I * (Real.tan (Real.pi * tone / fs) / Real.tan (Real.pi * centre / fs) : ℝ)

/-- Complex gain of a section for a tone. -/
noncomputable def gainAt (p : Section ℝ) (fs tone : ℝ) : ℂ :=
  if tone = fs / 2 then prototypeTop p else prototype p (warped tone p.f fs)

/-- Settings that can be realised at a sampling frequency. -/
structure Realisable (fs : ℝ) (p : Section ℝ) : Prop where
  fpos : 0 < p.f
  flt : p.f < fs / 2
  qpos : 0 < p.q

/-- After the transient, a tone at `tone` Hz with an arbitrary phase leaves the system multiplied by the complex gain
`H`. -/
def Responds (F : (ℕ → ℝ) → ℕ → ℝ) (fs tone : ℝ) (H : ℂ) : Prop :=
  ∀ phase : ℝ, Tendsto (fun n : ℕ =>
    F (fun k => Real.cos (2 * Real.pi * tone / fs * k + phase)) n -
      ‖H‖ * Real.cos (2 * Real.pi * tone / fs * n + phase + H.arg)) atTop (𝓝 0)

/-- Bounded signals stay bounded. -/
def Stable (F : (ℕ → ℝ) → ℕ → ℝ) : Prop :=
  ∀ (x : ℕ → ℝ) (M : ℝ), (∀ n, |x n| ≤ M) → ∃ B, ∀ n, |F x n| ≤ B

/-- The system made of sections with constant coefficients. -/
noncomputable def filtered (cs : List (Coef ℝ)) (x : ℕ → ℝ) : ℕ → ℝ :=
  cascade (fun _ k => (cs[k]?).getD Coef.flat) x cs.length

end Visr.EqDesign
