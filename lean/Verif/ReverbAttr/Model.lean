import Mathlib.Algebra.Notation.Defs

/-!
# Attributes of point sources with reverberation

Models `/repo/src/libobjectmodel/point_source_with_reverb.cpp`, `/repo/src/libobjectmodel/point_source_with_reverb.hpp` and
`/repo/src/python/objectmodel/point_source_with_reverb.cpp`: `PointSourceWithReverb` with its classes
`DiscreteReflection` and `LateReverb`. The part of the base class `PointSource` is in `Verif.ObjectAttr.Model`.

Floating point values are elements of a type `K`, biquads of a type `B` with the default (flat) biquad `flat`.
-/

namespace Visr.ReverbAttr

/-- Exceptions. -/
inductive Err where
  | invalidArgument
  | outOfRange
  deriving DecidableEq

/-- `cNumDiscreteReflectionBiquads` (`point_source_with_reverb.hpp:43`). -/
def numBiquads : Nat := 10

/-- `cNumberOfSubBands` (`point_source_with_reverb.hpp:36`). -/
def numBands : Nat := 9

/-- `DiscreteReflection` (`point_source_with_reverb.hpp:54-141`). -/
structure Reflection (K B : Type) where
  x : K
  y : K
  z : K
  delay : K
  level : K
  filters : List B

/-- `LateReverb` (`point_source_with_reverb.hpp:257-272`). -/
structure Late (K : Type) where
  onset : K
  attack : List K
  decay : List K
  levels : List K

/-- The arrays of `LateReverb`. -/
inductive Band where
  | levels | decay | attack
  deriving DecidableEq

/-- `PointSourceWithReverb` (`point_source_with_reverb.hpp:413-415`). -/
structure Reverb (K B : Type) where
  reflections : List (Reflection K B)
  late : Late K

section
variable {K B : Type} [Zero K]

/-- `DiscreteReflection()` (`point_source_with_reverb.cpp:40-48`). -/
def newReflection (flat : B) : Reflection K B := ⟨0, 0, 0, 0, 0, List.replicate numBiquads flat⟩

/-- `LateReverb()` (`point_source_with_reverb.cpp:109-115`). -/
def newLate : Late K := ⟨0, List.replicate numBands 0, List.replicate numBands 0, List.replicate numBands 0⟩

/-- `PointSourceWithReverb( id )` (`point_source_with_reverb.cpp:13-16`). -/
def new : Reverb K B := ⟨[], newLate⟩

omit [Zero K] in
/-- `reflectionFilter()` (`point_source_with_reverb.cpp:52-60`). -/
def reflectionFilter (flat : B) (r : Reflection K B) (i : Nat) : Except Err B :=
  if i ≥ numBiquads then .error .outOfRange else .ok (r.filters.getD i flat)

/-- A loop that assigns values from index `i` on. -/
def assignFrom {α : Type} (cur : List α) (i : Nat) : List α → List α
  | [] => cur
  | b :: bs => assignFrom (cur.set i b) (i + 1) bs

omit [Zero K] in
/-- `setReflectionFilters()` (`point_source_with_reverb.cpp:79-94`). The assertion is not modelled. -/
def setReflectionFilters (flat : B) (r : Reflection K B) (l : List B) : Except Err (Reflection K B) :=
  if l.length > numBiquads then .error .invalidArgument
  else
    let f := assignFrom r.filters 0 l
    .ok { r with filters := assignFrom f l.length (List.replicate (f.length - l.length) flat) }

omit [Zero K] in
/-- `setReflectionFilter()` (`point_source_with_reverb.cpp:96-103`). -/
def setReflectionFilter (r : Reflection K B) (i : Nat) (b : B) : Except Err (Reflection K B) :=
  if i ≥ r.filters.length then .error .outOfRange else .ok { r with filters := r.filters.set i b }

/-- Python, `setReflectionPosition` (`python/objectmodel/point_source_with_reverb.cpp:28-36`). -/
def setReflectionPosition (r : Reflection K B) (pos : List K) : Except Err (Reflection K B) :=
  if pos.length < 2 ∨ pos.length > 3 then .error .invalidArgument
  else .ok { r with x := pos.getD 0 0, y := pos.getD 1 0, z := if pos.length = 3 then pos.getD 2 0 else 0 }

/-- Calls for a reflection. -/
inductive ReflCall (K B : Type) where
  | position (x y z : K)
  | pyPosition (pos : List K)
  | delay (v : K)
  | level (v : K)
  | filters (l : List B)
  | filter (i : Nat) (b : B)

/-- One call for a reflection; `setPosition()`, `setDelay()`, `setLevel()` are `point_source_with_reverb.cpp:62-77`. -/
def reflStep (flat : B) (r : Reflection K B) : ReflCall K B → Except Err (Reflection K B)
  | .position x y z => .ok { r with x := x, y := y, z := z }
  | .pyPosition pos => setReflectionPosition r pos
  | .delay v => .ok { r with delay := v }
  | .level v => .ok { r with level := v }
  | .filters l => setReflectionFilters flat r l
  | .filter i b => setReflectionFilter r i b

/-- A program that goes on after exceptions. -/
def reflTry (flat : B) (r : Reflection K B) (c : ReflCall K B) : Reflection K B :=
  match reflStep flat r c with
  | .ok r' => r'
  | .error _ => r

/-- A reflection made by a sequence of calls. -/
def makeReflection (flat : B) (calls : List (ReflCall K B)) : Reflection K B :=
  calls.foldl (reflTry flat) (newReflection flat)

/-- `setNumberOfDiscreteReflections()` (`point_source_with_reverb.cpp:32-35`): `std::vector::resize`. -/
def setNumber (flat : B) (s : Reverb K B) (n : Nat) : Reverb K B :=
  { s with reflections := s.reflections.take n ++ List.replicate (n - s.reflections.length) (newReflection flat) }

omit [Zero K] in
/-- `discreteReflection()` (`point_source_with_reverb.hpp:395-407`): `std::vector::at`. -/
def reflection (s : Reverb K B) (i : Nat) : Except Err (Reflection K B) :=
  match s.reflections[i]? with
  | some r => .ok r
  | none => .error .outOfRange

/-- Python, `setDiscreteReflections` (`python/objectmodel/point_source_with_reverb.cpp:44-52`). -/
def setReflections (flat : B) (s : Reverb K B) (l : List (Reflection K B)) : Reverb K B :=
  let s' := setNumber flat s l.length
  { s' with reflections := assignFrom s'.reflections 0 l }

omit [Zero K] in
/-- `levels()`, `decayCoeffs()`, `attackTimes()` (`point_source_with_reverb.hpp:198-210`). -/
def Late.get (l : Late K) : Band → List K
  | .levels => l.levels
  | .decay => l.decay
  | .attack => l.attack

omit [Zero K] in
/-- The setters with a number of values (`point_source_with_reverb.cpp:158-183`); the same conditions hold in Python
(`python/objectmodel/point_source_with_reverb.cpp:62-76`). -/
def Late.set (l : Late K) (b : Band) (v : List K) : Except Err (Late K) :=
  if v.length ≠ numBands then .error .invalidArgument
  else .ok (match b with
    | .levels => { l with levels := v }
    | .decay => { l with decay := v }
    | .attack => { l with attack := v })

omit [Zero K] in
/-- `initializeCoeffVector` (`point_source_with_reverb.cpp:123-143`): the first `if` has no `else`. -/
def initCoeffs (coeff init : List K) (default : K) : Except Err (List K) :=
  let coeff := if init.length = 0 then coeff.map fun _ => default else coeff
  match init with
  | [v] => .ok (coeff.map fun _ => v)
  | _ => if coeff.length = init.length then .ok init else .error .invalidArgument

/-- `LateReverb( onsetDelay, levels, decayCoeffs, attackTimes )` (`point_source_with_reverb.cpp:147-156`). The arrays are
not initialised before; their values do not matter. -/
def makeLate (onset : K) (levels decay attack : List K) : Except Err (Late K) := do
  let l ← initCoeffs (List.replicate numBands 0) levels 0
  let d ← initCoeffs (List.replicate numBands 0) decay 0
  let a ← initCoeffs (List.replicate numBands 0) attack 0
  .ok { onset := onset, attack := a, decay := d, levels := l }

/-- Calls for a source. Reflections passed from Python were made by calls before. -/
inductive Call (K B : Type) where
  | number (n : Nat)
  | refl (i : Nat) (c : ReflCall K B)
  | reflections (l : List (List (ReflCall K B)))
  | onset (v : K)
  | band (b : Band) (v : List K)

/-- One call; a reflection is changed through the reference from `discreteReflection()`. -/
def perform (flat : B) (s : Reverb K B) : Call K B → Except Err (Reverb K B)
  | .number n => .ok (setNumber flat s n)
  | .refl i c =>
    match reflection s i with
    | .error e => .error e
    | .ok r =>
      match reflStep flat r c with
      | .error e => .error e
      | .ok r' => .ok { s with reflections := s.reflections.set i r' }
  | .reflections l => .ok (setReflections flat s (l.map (makeReflection flat)))
  | .onset v => .ok { s with late := { s.late with onset := v } }
  | .band b v =>
    match s.late.set b v with
    | .error e => .error e
    | .ok l => .ok { s with late := l }

/-- A program that goes on after exceptions. -/
def attempt (flat : B) (s : Reverb K B) (c : Call K B) : Reverb K B :=
  match perform flat s c with
  | .ok s' => s'
  | .error _ => s

/-- A sequence of calls for a new source. -/
def run (flat : B) (calls : List (Call K B)) : Reverb K B := calls.foldl (attempt flat) new

end

end Visr.ReverbAttr
