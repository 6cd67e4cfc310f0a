import Verif.Outcome
import Verif.RealText.Lemmas

/-!
# Matrices and vectors read from texts and audio files

`/repo/src/libpml/matrix_parameter.cpp` lines 93-207 and 267-334, `/repo/src/libpml/vector_parameter.cpp` lines 100-145
and 205-270.

Simplifications: see `RealText/Model.lean` for the numbers.  Opening files, errors of the stream and memory alignment are
not modelled.
-/

namespace Visr.MatrixText

open Visr.ChannelList (isSpace skipWs)
open Visr.RealText

/-- `-qi::char_( ',' )` followed by a number: `matrix_parameter.cpp` line 170 and 172, `vector_parameter.cpp` lines 124
and 126. -/
def more (s : List Char) : Option (Num × List Char) :=
  match skipWs s with
  | ',' :: r => real r
  | r => real r

/-- The remaining elements of the list `number % -char_( ',' )`, and the rest of the text: `matrix_parameter.cpp` lines
170-172. The guard on the length always holds (`more_length`); it makes the recursion well-founded. -/
def items (s : List Char) : List Num × List Char :=
  match more s with
  | none => ([], s)
  | some (x, r) =>
    if r.length < s.length then
      let y := items r
      (x :: y.1, y.2)
    else ([x], r)
termination_by s.length

/-- The list of numbers at the beginning of a text: `matrix_parameter.cpp` lines 170-172. The list is itself repeated by
the grammar; a second repetition would start where the list has ended, and finds no number there. -/
def numbers (s : List Char) : List Num × List Char :=
  match real s with
  | none => ([], s)
  | some (x, r) => (x :: (items r).1, (items r).2)

/-- One line of numbers, optionally followed by a comment that begins with `%`: `matrix_parameter.cpp` lines 153-177,
`vector_parameter.cpp` lines 107-131. -/
def row (s : List Char) : Outcome (List Num) :=
  match skipWs (numbers s).2 with
  | [] => .ok (numbers s).1
  | '%' :: _ => .ok (numbers s).1
  | _ => .throw .invalidArgument

/-- The parts of a text between separators: `std::getline` and the search for `;` in `matrix_parameter.cpp` lines 141-151
and 185. -/
def pieces (sep : Char) : List Char → List (List Char)
  | [] => [[]]
  | c :: s =>
    if c = sep then [] :: pieces sep s
    else
      match pieces sep s with
      | [] => [[c]]
      | p :: ps => (c :: p) :: ps

/-- The lines of the text, in order: `matrix_parameter.cpp` lines 141-186. -/
def rows : List (List Char) → Outcome (List (List Num))
  | [] => .ok []
  | s :: ss =>
    match row s with
    | .ok v =>
      match rows ss with
      | .ok vs => .ok (v :: vs)
      | .throw e => .throw e
      | .ub => .ub
    | .throw e => .throw e
    | .ub => .ub

/-- A matrix: its dimensions and its rows. -/
structure Matrix (K : Type) where
  numRows : Nat
  numCols : Nat
  data : List (List K)
  deriving DecidableEq

/-- Lines without a number are ignored, the others must have the same length: `matrix_parameter.cpp` lines 178-206. -/
def assemble (vs : List (List Num)) : Outcome (Matrix Num) :=
  match vs.filter (fun v => v.length ≠ 0) with
  | [] => .ok ⟨0, 0, []⟩
  | v :: r =>
    if (v :: r).any (fun w => w.length ≠ v.length) then .throw .invalidArgument
    else .ok ⟨(v :: r).length, v.length, v :: r⟩

/-- `MatrixParameter::fromString` and `fromStream`: `matrix_parameter.cpp` lines 93-98 and 136-207. -/
def matrixFromText (s : List Char) : Outcome (Matrix Num) :=
  match rows ((pieces '\n' s).flatMap (pieces ';')) with
  | .ok vs => assemble vs
  | .throw e => .throw e
  | .ub => .ub

/-- `VectorParameter::fromString` and `fromStream`: `vector_parameter.cpp` lines 100-145. -/
def vectorFromText (s : List Char) : Outcome (List Num) := row s

/-! ### Audio files -/

/-- An audio file as the sound file library reports it: the numbers of channels and frames, and the samples that are
actually read, interleaved. -/
structure Audio (K : Type) where
  channels : Nat
  frames : Nat
  samples : List K

/-- The memory after reading: elements that are not read keep the content they had, here `none`:
`matrix_parameter.cpp` lines 288-289, `vector_parameter.cpp` lines 230-232. -/
def received {K : Type} (a : Audio K) (n : Nat) : Option K := if n < a.channels * a.frames then a.samples[n]? else none

/-- `MatrixParameter::fromAudioFile`: `matrix_parameter.cpp` lines 267-316. The exceptions for a failed or incomplete
read (lines 290-298) are constructed, but not thrown. -/
def matrixFromAudio {K : Type} (a : Audio K) : Outcome (Matrix (Option K)) :=
  .ok ⟨a.channels, a.frames,
    (List.range a.channels).map fun r => (List.range a.frames).map fun c => received a (c * a.channels + r)⟩

/-- `VectorParameter::fromAudioFile`: `vector_parameter.cpp` lines 205-253. -/
def vectorFromAudio {K : Type} (a : Audio K) : Outcome (List (Option K)) :=
  if a.channels ≠ 1 then .throw .invalidArgument
  else .ok ((List.range a.frames).map (received a))

end Visr.MatrixText
