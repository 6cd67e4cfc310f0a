import Verif.CircularBuffer.Model
import Verif.Convolver.Model
import Mathlib.Analysis.SpecialFunctions.Trigonometric.Basic
import Mathlib.Analysis.Real.Sqrt

/-!
# Time-frequency analysis and synthesis

Models `src/librcl/time_frequency_transform.{hpp,cpp}` and `src/librcl/time_frequency_inverse_transform.{hpp,cpp}` over the
real numbers. The FFT library is the parameter `Convolver.Fft`. A slice of DFT bins (the memory behind
`TimeFrequencyParameter::channelSlice`, whose cells are the subject of C47) is a function from the bin to the value.
Not modelled: rounding; exceptions of the FFT factory and of the FFT; the alignment of the output port, which the runtime
provides.
-/

namespace Visr.TimeFreq
open Visr Visr.CircularBuffer Visr.Convolver

variable {F : Type*}

/-- `Normalisation` (`time_frequency_transform.hpp:47-53`, `time_frequency_inverse_transform.hpp:46-55`). -/
inductive Normalisation where
  | one
  | unitary
  | oneOverN

/-- `desiredNormalisation` (`time_frequency_transform.cpp:128-131`) and `desiredScaling`
(`time_frequency_inverse_transform.cpp:33-38`). -/
noncomputable def Normalisation.factor (n : Normalisation) (dft : Nat) : ℝ :=
  match n with
  | .one => 1
  | .unitary => 1 / Real.sqrt (dft : ℝ)
  | .oneOverN => 1 / (dft : ℝ)

/-- `unityHannWindow` (`time_frequency_transform.cpp:33-45`). -/
noncomputable def unityHannWindow (length : Nat) : List ℝ :=
  (List.range length).map fun idx : Nat => 0.5 - 0.5 * Real.cos (2 * Real.pi * (idx : ℝ) / (length : ℝ))

/-- Data members of `TimeFrequencyTransform` (`time_frequency_transform.hpp:126-181`). `work` is `mCalcBuffer`, `align` is
`cVectorAlignmentSamples`. -/
structure Analysis (F : Type*) where
  align : Nat
  period : Nat
  channels : Nat
  dft : Nat
  winLen : Nat
  frames : Nat
  hop : Nat
  fft : Fft ℝ F
  buf : CB ℝ
  window : Nat → ℝ
  work : Nat → ℝ

/-- Constructor with a window (`time_frequency_transform.cpp:87-164`, `inputBufferSize` at `:50-61`). The initialiser of
`cFramesPerPeriod` divides by the hop size before it is tested. The exception at `:119-124` is shadowed by the one in
`inputBufferSize`. Simplification: a period of zero samples, for which `hopsPerPeriod - 1` wraps around, is not modelled. -/
noncomputable def Analysis.create (align period channels dft : Nat) (window : List ℝ) (hop : Nat) (norm : Normalisation)
    (fft : Fft ℝ F) : Outcome (Analysis F) :=
  if hop = 0 then .ub
  else if period % hop ≠ 0 then .throw .logicError
  else
    let buf : CB ℝ := CB.init channels (window.length + (period / hop - 1) * hop) align
    let a : Analysis F :=
      { align, period, channels, dft, winLen := window.length, frames := period / hop, hop, fft, buf
        window := fun i => (norm.factor dft / fft.fs) * window.getD i 0
        work := fun _ => 0 }
    if dft > hop then
      match buf.write (fun _ _ => 0) channels (dft - hop) with
      | .ok b => .ok { a with buf := b }
      | .throw e => .throw e
      | .ub => .ub
    else .ok a

/-- Constructor with the default window (`time_frequency_transform.cpp:65-85`). -/
noncomputable def Analysis.createHann (align period channels dft windowLength hop : Nat) (norm : Normalisation)
    (fft : Fft ℝ F) : Outcome (Analysis F) :=
  Analysis.create align period channels dft (unityHannWindow windowLength) hop norm fft

/-- `vectorMultiply( getReadPointer( channelIndex, blockStartIndex ), mWindow, mCalcBuffer, cWindowLength, cAlignment )`
(`time_frequency_transform.cpp:175-189`): `vectorMultiply` refuses an unaligned read pointer (rows of the circular buffer
are aligned, so the position in the row decides); writing more than `dftSize` elements leaves `mCalcBuffer`. -/
def Analysis.windowing (a : Analysis F) (frame ch : Nat) : Outcome (Analysis F) :=
  let start := a.winLen + (a.frames - frame - 1) * a.hop
  if a.align ≠ 0 ∧ (a.buf.alloc + a.buf.w - start) % a.align ≠ 0 then .throw .runtimeError
  else if a.winLen > a.dft then .ub
  else
    match a.buf.read ch start a.winLen with
    | .ok xs => .ok { a with work := fun i => if i < a.winLen then xs.getD i 0 * a.window i else a.work i }
    | .throw e => .throw e
    | .ub => .ub

/-- The body of the loops of `process` (`time_frequency_transform.cpp:173-199`) for a list of frame and channel indices;
`out frame channel` is the slice of the output parameter. -/
def Analysis.loop (a : Analysis F) (out : Nat → Nat → Nat → F) :
    List (Nat × Nat) → Outcome (Analysis F × (Nat → Nat → Nat → F))
  | [] => .ok (a, out)
  | (f, c) :: rest =>
    match a.windowing f c with
    | .ok a' => Analysis.loop a' (fun f' c' => if f' = f ∧ c' = c then a'.fft.fwd a'.work else out f' c') rest
    | .throw e => .throw e
    | .ub => .ub

/-- The index pairs in the order of the nested loops. -/
def indices (frames channels : Nat) : List (Nat × Nat) :=
  (List.range frames).flatMap fun f => (List.range channels).map fun c => (f, c)

/-- `TimeFrequencyTransform::process` (`time_frequency_transform.cpp:168-200`). `old` is the content of the output parameter
before the call. -/
def Analysis.process (a : Analysis F) (input : Nat → Nat → ℝ) (old : Nat → Nat → Nat → F) :
    Outcome (Analysis F × (Nat → Nat → Nat → F)) :=
  match a.buf.write input a.channels a.period with
  | .ok b => Analysis.loop { a with buf := b } old (indices a.frames a.channels)
  | .throw e => .throw e
  | .ub => .ub

/-- Data members of `TimeFrequencyInverseTransform` (`time_frequency_inverse_transform.hpp:90-134`). `work` is
`mCalcBuffer`. -/
structure Synthesis (F : Type*) where
  period : Nat
  channels : Nat
  dft : Nat
  frames : Nat
  hop : Nat
  fft : Fft ℝ F
  acc : Nat → Nat → ℝ
  work : Nat → ℝ
  scale : ℝ

/-- Constructor (`time_frequency_inverse_transform.cpp:45-81`, `calculateScalingFactor` at `:26-41`). With a hop larger than
the DFT size the width `dftSize - cHopSize` of the accumulation buffer wraps around; the model gives up in this case. -/
noncomputable def Synthesis.create (period channels dft hop : Nat) (norm : Normalisation) (fft : Fft ℝ F) :
    Outcome (Synthesis F) :=
  if hop = 0 then .ub
  else if dft < hop then .ub
  else if period % hop ≠ 0 then .throw .invalidArgument
  else .ok
    { period, channels, dft, frames := period / hop, hop, fft
      acc := fun _ _ => 0
      work := fun _ => 0
      scale := norm.factor dft / fft.is }

/-- One turn of the frame loop (`time_frequency_inverse_transform.cpp:95-122`). -/
def Synthesis.frame (s : Synthesis F) (ch : Nat) (X : Nat → F) : Synthesis F :=
  let y := s.fft.inv X
  let work : Nat → ℝ := fun i => if i < s.dft - s.hop then y i + s.acc ch i else y i
  { s with
    work := work
    acc := fun c i => if c = ch ∧ i < s.dft - s.hop then work (s.hop + i) else s.acc c i }

/-- The frame loop for one channel, `X frame` being the slice of the input parameter. -/
def Synthesis.frameLoop (s : Synthesis F) (ch : Nat) (X : Nat → Nat → F) : List Nat → Synthesis F
  | [] => s
  | f :: fs => Synthesis.frameLoop (s.frame ch (X f)) ch X fs

/-- The channel loop (`time_frequency_inverse_transform.cpp:91-135`). The output copy reads `period` elements of
`mCalcBuffer`. -/
def Synthesis.channelLoop (s : Synthesis F) (X : Nat → Nat → Nat → F) (out : Nat → Nat → ℝ) :
    List Nat → Outcome (Synthesis F × (Nat → Nat → ℝ))
  | [] => .ok (s, out)
  | ch :: rest =>
    let s' := s.frameLoop ch (fun f => X f ch) (List.range s.frames)
    if s.period > s.dft then .ub
    else
      Synthesis.channelLoop s' X (fun c i => if c = ch ∧ i < s.period then s'.scale * s'.work i else out c i) rest

/-- `TimeFrequencyInverseTransform::process` (`time_frequency_inverse_transform.cpp:85-136`); `X frame channel` is the input
parameter, `old` the content of the output port before the call. -/
def Synthesis.process (s : Synthesis F) (X : Nat → Nat → Nat → F) (old : Nat → Nat → ℝ) :
    Outcome (Synthesis F × (Nat → Nat → ℝ)) :=
  s.channelLoop X old (List.range s.channels)

end Visr.TimeFreq
