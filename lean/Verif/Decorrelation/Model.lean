import Verif.Outcome
import Verif.PTree
import Verif.Convolver.Dft
import Verif.EqDesign.Model
import Verif.FilterMatrix.Model

/-!
# Decorrelation filters of the late reverberation

Models `generateRandomPhaseAllpass` and the part of the constructor of `ReverbObjectRenderer` that provides the decorrelation
filters (`src/libreverbobject/reverb_object_renderer.cpp:81-135, 187-231`), and `FftWrapperFactory::create` with the three
wrappers it can return (`src/librbbl/fft_wrapper_factory.cpp`, `kiss_fft_wrapper_float.cpp`, `ffts_wrapper.cpp`,
`ipp_fft_wrapper.cpp`).

Numbers are real. The random number generator is a parameter: `draw j` is the `j`-th value that `uniformPhaseGen( gen )`
returns. The FFT libraries are represented by the discrete Fourier transform (`Convolver.dft`). The debugging output
(`DEBUG_DECORR_FILTER_GENERATION`) and the conversion of transform sizes to `int` are not modelled.
-/

namespace Visr.Decorrelation
open Visr Visr.Convolver

/-- The FFT libraries with a wrapper. -/
inductive Library where
  | kiss
  | ffts
  | ipp
  deriving DecidableEq, Repr

/-- Build options: `BUILD_FFTS`, `BUILD_USE_IPP`, and whether the processor is one of those for which the FFTS wrapper checks
the alignment (`ffts_wrapper.cpp:23-29`). -/
structure Build where
  ffts : Bool
  ipp : Bool
  simd : Bool

/-- The table of the factory for `float` (`double := false`) or `double` (`fft_wrapper_factory.cpp:84-104`), looked up with the
name in lower case (`:65-75`). -/
def find (b : Build) (double : Bool) (name : String) : Option Library :=
  let lowerName := name.toLower
  if lowerName = "kissfft" then some .kiss
  else if lowerName = "ffts" then (if b.ffts && !double then some .ffts else none)
  else if lowerName = "ipp" then (if b.ipp then some .ipp else none)
  else if lowerName = "default" then some .kiss
  else none

/-- `IppFftWrapper`: the library is told to divide the results of both transforms by the square root of the transform size
(`IPP_FFT_DIV_BY_SQRTN`, `ipp_fft_wrapper.cpp:60-71, 115-127`), and the declared scaling factors are 1
(`ipp_fft_wrapper.hpp:39-41`). -/
noncomputable def ippDft (L : Nat) : Fft ℝ ℂ where
  fwd x k := (dft L).fwd x k / (Real.sqrt (2 * L : Nat) : ℂ)
  inv X n := (dft L).inv X n / Real.sqrt (2 * L : Nat)
  fs := 1
  is := 1

/-- `FftWrapperFactory::create( wrapperName, fftSize, alignElements )` (`fft_wrapper_factory.cpp:60-77`). KISS FFT refuses odd
sizes (`kiss_fft_wrapper_float.cpp:25-34`, `/repo/3rd/kissfft/tools/kiss_fftr.c:33-36`), IPP sizes that are not powers of two
(`ipp_fft_wrapper.cpp:24-35, 50-56`), FFTS alignments below two (`ffts_wrapper.cpp:23-29`). Simplification: FFTS accepts all
even sizes. -/
noncomputable def create (b : Build) (double : Bool) (name : String) (fftSize alignElements : Nat) : Outcome (Fft ℝ ℂ) :=
  match find b double name with
  | none => .throw .invalidArgument
  | some .kiss => if fftSize % 2 = 1 then .throw .invalidArgument else .ok (dft (fftSize / 2))
  | some .ffts =>
    if b.simd && alignElements < 2 then .throw .invalidArgument
    else if fftSize % 2 = 1 then .throw .invalidArgument else .ok (dft (fftSize / 2))
  | some .ipp => if 2 ^ Nat.log 2 fftSize = fftSize then .ok (ippDft (fftSize / 2)) else .throw .invalidArgument

/-- The vector `freqResponse` of length `filterLength / 2 + 1` after the first and the last element have been set to one and
those between have been generated, the first one from the draw with index `pos` (`reverb_object_renderer.cpp:94-99, 115-122`). -/
noncomputable def freqResponse (filterLength : Nat) (draw : Nat → ℝ) (pos : Nat) (k : Nat) : ℂ :=
  if k = 0 then 1
  else if k = filterLength / 2 then 1
  else ⟨Real.cos (draw (pos + (k - 1))), Real.sin (draw (pos + (k - 1)))⟩

/-- One run of the loop body (`reverb_object_renderer.cpp:115-125`). -/
noncomputable def filterRow (fft : Fft ℝ ℂ) (filterLength : Nat) (scaleFactor : ℝ) (draw : Nat → ℝ) (pos : Nat) : List ℝ :=
  (List.range filterLength).map fun n => scaleFactor * fft.inv (freqResponse filterLength draw pos) n

/-- The loop over the filters (`reverb_object_renderer.cpp:113-134`). Each run takes `filterLength / 2 - 1` draws. -/
noncomputable def rowsFrom (fft : Fft ℝ ℂ) (filterLength : Nat) (scaleFactor : ℝ) (draw : Nat → ℝ) : Nat → Nat → List (List ℝ)
  | 0, _ => []
  | n + 1, pos =>
    filterRow fft filterLength scaleFactor draw pos ::
      rowsFrom fft filterLength scaleFactor draw n (pos + (filterLength / 2 - 1))

/-- `generateRandomPhaseAllpass( filters, decorrelatorGain )` for a matrix of `numFilters` rows and `filterLength` columns
(`reverb_object_renderer.cpp:90-135`), with the FFT wrapper of the given name (the code asks for `"default"`, `:101-102`). For a
vector `freqResponse` of a single element the range from `begin()+1` to `end()-1` is not valid, which is undefined behaviour. -/
noncomputable def generateWith (b : Build) (fftName : String) (numFilters filterLength : Nat) (draw : Nat → ℝ)
    (decorrelatorGain : ℝ) : Outcome (List (List ℝ)) :=
  match create b false fftName filterLength 0 with
  | .throw e => .throw e
  | .ub => .ub
  | .ok fft =>
    let scaleFactor := decorrelatorGain / ((filterLength : ℝ) * fft.is)
    if numFilters = 0 then .ok []
    else if filterLength < 2 then .ub
    else .ok (rowsFrom fft filterLength scaleFactor draw numFilters 0)

/-- `generateRandomPhaseAllpass( filters, decorrelatorGain )` (`reverb_object_renderer.cpp:90-135`). -/
noncomputable def generateRandomPhaseAllpass (b : Build) (numFilters filterLength : Nat) (draw : Nat → ℝ)
    (decorrelatorGain : ℝ) : Outcome (List (List ℝ)) :=
  generateWith b "default" numFilters filterLength draw decorrelatorGain

/-- `lateReverbDecorrelatorGain` (`reverb_object_renderer.cpp:187-194`). `get_optional` returns nothing for values that are
not numbers. -/
noncomputable def decorrelatorGain (configured : Entry ℝ) (numLoudspeakers : Nat) : ℝ :=
  match configured with
  | .val dB => EqDesign.dB2linear dB
  | .missing => 1 / Real.sqrt numLoudspeakers
  | .malformed => 1 / Real.sqrt numLoudspeakers

/-- The reverb configuration as far as it is used here: the name of the file with the decorrelation filters (`none` if it is
missing or empty, otherwise what is found under that name) and the gain. -/
structure Config where
  file : Option (FilterMatrix.File ℝ)
  gain : Entry ℝ

/-- `lateDecorrelationFilters` as the constructor of `ReverbObjectRenderer` computes it
(`reverb_object_renderer.cpp:187-231`). `sndfile` is the build option `VISR_PML_USE_SNDFILE_LIBRARY`. -/
noncomputable def lateDecorrelationFilters (b : Build) (sndfile : Bool) (draw : Nat → ℝ) (c : Config) (numLoudspeakers : Nat) :
    Outcome (List (List ℝ)) :=
  let gain := decorrelatorGain c.gain numLoudspeakers
  match c.file with
  | none => generateRandomPhaseAllpass b numLoudspeakers 512 draw gain
  | some .missing => .throw .invalidArgument
  | some .unreadable => .throw .invalidArgument
  | some (.audio a) =>
    if sndfile then
      if a.rows.length < numLoudspeakers then .throw .invalidArgument
      else .ok ((a.rows.take numLoudspeakers).map fun row => row.map fun x => gain * x)
    else .throw .invalidArgument

end Visr.Decorrelation
