import Verif.FloatSequence.Model
import Verif.MatrixText.Spec

/-!
# Sequences of numbers and ranges read from text: specification

A text is a list of entries separated by commas; an entry is a number, a range `start:end` with step one, or a range
`start:step:end`.
-/

namespace Visr.FloatSequence

open Visr.RealText
open Visr.MatrixText (Blank Number)

/-- The values of a range: start, start + step, ... as long as the end is not exceeded in the direction of the step. -/
def Progression (start step stop : ℚ) (L : List ℚ) : Prop :=
  ∀ k : ℕ, L[k]? =
    if (0 < step ∧ start + k * step ≤ stop) ∨ (step < 0 ∧ stop ≤ start + k * step) then some (start + k * step) else none

/-- The values which an entry with the given parts stands for. -/
def Denotes (eps : ℚ) : List ℚ → List ℚ → Prop
  | [v], L => L = [v]
  | [a, b], L => Progression a 1 b L
  | [a, i, b], L => eps ≤ |i| ∧ Progression a i b L
  | _, _ => False

/-- An entry: numbers separated by colons, with optional white space. -/
inductive Entry : List ℚ → List Char → Prop
  | one (l : Literal) : l.Ok → Entry [l.val] l.text
  | cons (l : Literal) (a b : List Char) (vs : List ℚ) (t : List Char) :
      l.Ok → Blank a → Blank b → Entry vs t → Entry (l.val :: vs) (l.text ++ a ++ ':' :: b ++ t)

/-- Entries separated by commas, with optional white space. -/
inductive Entries : List (List ℚ) → List Char → Prop
  | one (vs : List ℚ) (a t b : List Char) : Blank a → Entry vs t → Blank b → Entries [vs] (a ++ t ++ b)
  | cons (vs : List ℚ) (a t b : List Char) (vss : List (List ℚ)) (r : List Char) :
      Blank a → Entry vs t → Blank b → Entries vss r → Entries (vs :: vss) (a ++ t ++ b ++ ',' :: r)

/-! ### What is accepted -/

/-- An entry whose numbers may also be special values. -/
inductive AcceptedEntry : List Num → List Char → Prop
  | one (x : Num) (t : List Char) : Number x t → AcceptedEntry [x] t
  | cons (x : Num) (t a b : List Char) (vs : List Num) (r : List Char) :
      Number x t → Blank a → Blank b → AcceptedEntry vs r → AcceptedEntry (x :: vs) (t ++ a ++ ':' :: b ++ r)

inductive AcceptedEntries : List (List Num) → List Char → Prop
  | one (vs : List Num) (a t b : List Char) : Blank a → AcceptedEntry vs t → Blank b → AcceptedEntries [vs] (a ++ t ++ b)
  | cons (vs : List Num) (a t b : List Char) (vss : List (List Num)) (r : List Char) :
      Blank a → AcceptedEntry vs t → Blank b → AcceptedEntries vss r → AcceptedEntries (vs :: vss) (a ++ t ++ b ++ ',' :: r)

/-- The values of an accepted entry: those of the range if all its parts are finite, and at most its first number if
some are not. -/
def Means (eps : ℚ) (g : List Num) (L : List Num) : Prop :=
  (∃ q M, g = q.map .fin ∧ Denotes eps q M ∧ L = M.map .fin) ∨
    ((∃ x ∈ g, ∀ q, x ≠ .fin q) ∧ g.length ≤ 3 ∧ ((L = [] ∧ g.length ≠ 1) ∨ ∃ x, g.head? = some x ∧ L = [x]))

end Visr.FloatSequence
