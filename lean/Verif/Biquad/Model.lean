import Verif.Run
import Mathlib.Algebra.Field.Defs
import Mathlib.Tactic.TypeStar

/-!
# IIR filters

Models `src/libefl/reference/filter_functions_impl.hpp`, the parts of `src/librbbl/biquad_coefficient.hpp` it is used
with, and `src/librcl/biquad_iir_filter.{hpp,cpp}`. Samples are elements of a field; rounding is not modelled. Rows of
the coefficient and state matrices are modelled by their content (their separation is C19).
-/

namespace Visr.Biquad
open Visr

variable {K : Type*}

/-- `BiquadCoefficient` (`biquad_coefficient.hpp`): the five coefficients in their storage order. -/
structure Coef (K : Type*) where
  b0 : K
  b1 : K
  b2 : K
  a1 : K
  a2 : K
  deriving DecidableEq

/-- `BiquadCoefficient::data()`: the storage order of the coefficients. -/
def Coef.data (c : Coef K) : Nat → K
  | 0 => c.b0
  | 1 => c.b1
  | 2 => c.b2
  | 3 => c.a1
  | _ => c.a2

variable [Field K]

/-- The default constructor of `BiquadCoefficient`: a flat section. -/
def Coef.flat : Coef K := ⟨1, 0, 0, 0, 0⟩

/-- `iirBiquadInternal` and `iirBiquadInternalInplace` (`filter_functions_impl.hpp:22-73`). The in-place variant reads
each sample before it overwrites it and therefore computes the same function. -/
def biquad (coeffs : Nat → K) : K → K → List K → List K × K × K
  | v1, v2, [] => ([], v1, v2)
  | v1, v2, x :: xs =>
    let y := coeffs 0 * x + v1
    let r := biquad coeffs (v2 + coeffs 1 * x - coeffs 3 * y) (coeffs 2 * x - coeffs 4 * y) xs
    (y :: r.1, r.2)

/-- Store the two states of a section. -/
def storeStates (states : Nat → K) (pos : Nat) (v1 v2 : K) : Nat → K :=
  fun i => if i = pos then v1 else if i = pos + 1 then v2 else states i

/-- The loop over the sections after the first (`filter_functions_impl.hpp:97-102`), from `secIdx`, `n` sections to go. -/
def sectionLoop (coeffs : Nat → K) (stateStride coeffStride : Nat) : Nat → Nat → List K → (Nat → K) → List K × (Nat → K)
  | 0, _, out, states => (out, states)
  | n + 1, secIdx, out, states =>
    let r := biquad (fun i => coeffs (secIdx * coeffStride + i)) (states (secIdx * stateStride))
      (states (secIdx * stateStride + 1)) out
    sectionLoop coeffs stateStride coeffStride n (secIdx + 1) r.1 (storeStates states (secIdx * stateStride) r.2.1 r.2.2)

/-- `iirFilterBiquadsSingleChannel` (`filter_functions_impl.hpp:78-104`). -/
def iirFilterBiquadsSingleChannel (input : List K) (states coeffs : Nat → K) (numSections stateStride coeffStride : Nat) :
    List K × (Nat → K) :=
  if numSections = 0 then (input, states)
  else
    let r := biquad coeffs (states 0) (states 1) input
    sectionLoop coeffs stateStride coeffStride (numSections - 1) 1 r.1 (storeStates states 0 r.2.1 r.2.2)

/-- Members of `BiquadIirFilter`: rows of `mCoefficients` and `mState`. -/
structure Filter (K : Type*) where
  channels : Nat
  sections : Nat
  coeffs : Nat → Nat → K
  states : Nat → Nat → K

/-- `setCoefficientsInternal` (`biquad_iir_filter.cpp:137-148`). -/
def Filter.setInternal (f : Filter K) (ch k : Nat) (c : Coef K) : Filter K :=
  { f with coeffs := fun ch' i => if ch' = ch ∧ k * 5 ≤ i ∧ i < k * 5 + 5 then c.data (i - k * 5) else f.coeffs ch' i }

/-- The loop of `setChannelCoefficientsInternal` (`biquad_iir_filter.cpp:168-177`) over the first `n` sections. The list
is indexed without a check. -/
def Filter.setChannelLoop (f : Filter K) (ch : Nat) (cs : List (Coef K)) : Nat → Outcome (Filter K)
  | 0 => .ok f
  | n + 1 =>
    match f.setChannelLoop ch cs n with
    | .ok f' => match cs[n]? with
      | some c => .ok (f'.setInternal ch n c)
      | none => .ub
    | .throw e => .throw e
    | .ub => .ub

/-- The loop of `setCoefficientMatrixInternal` (`biquad_iir_filter.cpp:199-207`) over the first `n` channels. -/
def Filter.setMatrixLoop (f : Filter K) (m : List (List (Coef K))) : Nat → Outcome (Filter K)
  | 0 => .ok f
  | n + 1 =>
    match f.setMatrixLoop m n with
    | .ok f' => match m[n]? with
      | some cs => f'.setChannelLoop n cs f'.sections
      | none => .ub
    | .throw e => .throw e
    | .ub => .ub

/-- `setCoefficients` (`biquad_iir_filter.cpp:118-135`). -/
def Filter.setCoefficients (f : Filter K) (ch k : Nat) (c : Coef K) : Outcome (Filter K) :=
  if ch ≥ f.channels then .throw .invalidArgument
  else if k ≥ f.sections then .throw .invalidArgument
  else .ok (f.setInternal ch k c)

/-- `setChannelCoefficients` (`biquad_iir_filter.cpp:150-166`). -/
def Filter.setChannel (f : Filter K) (ch : Nat) (cs : List (Coef K)) : Outcome (Filter K) :=
  if ch ≥ f.channels then .throw .invalidArgument
  else if cs.length ≠ f.sections then .throw .invalidArgument
  else f.setChannelLoop ch cs f.sections

/-- `BiquadCoefficientMatrix::numberOfSections()`: the length of the first row. -/
def numberOfSections (m : List (List (Coef K))) : Nat :=
  match m with
  | [] => 0
  | r :: _ => r.length

/-- `setCoefficientMatrix` (`biquad_iir_filter.cpp:179-197`). -/
def Filter.setMatrix (f : Filter K) (m : List (List (Coef K))) : Outcome (Filter K) :=
  if m.length ≠ f.channels then .throw .invalidArgument
  else if f.channels > 0 ∧ numberOfSections m ≠ f.sections then .throw .invalidArgument
  else f.setMatrixLoop m f.channels

/-- The first constructor (`biquad_iir_filter.cpp:21-49`): both matrices are filled with zeros. -/
def Filter.create (channels sections : Nat) : Filter K := ⟨channels, sections, fun _ _ => 0, fun _ _ => 0⟩

/-- The inner loop of the constructor with one coefficient set (`biquad_iir_filter.cpp:65-69`). -/
def setAllSections (f : Filter K) (ch : Nat) (c : Coef K) : Nat → Filter K
  | 0 => f
  | n + 1 => (setAllSections f ch c n).setInternal ch n c

/-- The outer loop of the constructor with one coefficient set (`biquad_iir_filter.cpp:62-70`). -/
def setAllChannels (f : Filter K) (c : Coef K) : Nat → Filter K
  | 0 => f
  | n + 1 => setAllSections (setAllChannels f c n) n c f.sections

/-- The constructor with one coefficient set for all sections (`biquad_iir_filter.cpp:51-71`). -/
def Filter.createUniform (channels sections : Nat) (c : Coef K) : Filter K :=
  setAllChannels (Filter.create channels sections) c channels

/-- The loop of the constructor with one coefficient list for all channels (`biquad_iir_filter.cpp:90-94`). -/
def setListChannels (f : Filter K) (cs : List (Coef K)) : Nat → Outcome (Filter K)
  | 0 => .ok f
  | n + 1 =>
    match setListChannels f cs n with
    | .ok f' => f'.setChannelLoop n cs f'.sections
    | .throw e => .throw e
    | .ub => .ub

/-- The constructor with one coefficient list for all channels (`biquad_iir_filter.cpp:73-95`). -/
def Filter.createList (channels sections : Nat) (cs : List (Coef K)) : Outcome (Filter K) :=
  if cs.length ≠ sections then .throw .invalidArgument
  else setListChannels (Filter.create channels sections) cs channels

/-- The constructor with a coefficient matrix (`biquad_iir_filter.cpp:97-116`). -/
def Filter.createMatrix (channels sections : Nat) (m : List (List (Coef K))) : Outcome (Filter K) :=
  if m.length ≠ channels ∨ numberOfSections m ≠ sections then .throw .invalidArgument
  else (Filter.create channels sections).setMatrixLoop m channels

/-- Calls between and including the processing of blocks. -/
inductive Op (K : Type*) where
  | setCoefficients (ch k : Nat) (c : Coef K)
  | setChannel (ch : Nat) (cs : List (Coef K))
  | setMatrix (m : List (List (Coef K)))
  /-- `process()` with the content of the control input if it has changed, and the samples of each channel. -/
  | process (eq : Option (List (List (Coef K)))) (audio : Nat → List K)

/-- Setter results become the new state; exceptions leave it unchanged. -/
def keep (f : Filter K) : Outcome (Filter K) → Filter K × Outcome (List (List K))
  | .ok f' => (f', .ok [])
  | .throw e => (f, .throw e)
  | .ub => (f, .ub)

/-- The filtering part of `process()` (`biquad_iir_filter.cpp:216-229`). -/
def Filter.filterBlock (f : Filter K) (audio : Nat → List K) : Filter K × List (List K) :=
  let res := fun ch => iirFilterBiquadsSingleChannel (audio ch) (f.states ch) (f.coeffs ch) f.sections 2 5
  ({ f with states := fun ch => if ch < f.channels then (res ch).2 else f.states ch },
   (List.range f.channels).map fun ch => (res ch).1)

/-- One call; `process()` is `biquad_iir_filter.cpp:209-230`. -/
def step (f : Filter K) : Op K → Filter K × Outcome (List (List K))
  | .setCoefficients ch k c => keep f (f.setCoefficients ch k c)
  | .setChannel ch cs => keep f (f.setChannel ch cs)
  | .setMatrix m => keep f (f.setMatrix m)
  | .process eq audio =>
    match eq with
    | none => let r := f.filterBlock audio; (r.1, .ok r.2)
    | some m =>
      match f.setMatrix m with
      | .ok f' => let r := f'.filterBlock audio; (r.1, .ok r.2)
      | .throw e => (f, .throw e)
      | .ub => (f, .ub)

end Visr.Biquad
