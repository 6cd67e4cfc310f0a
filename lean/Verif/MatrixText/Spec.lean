import Verif.MatrixText.Model

/-!
# Matrices and vectors read from texts and audio files: specification

How matrices and vectors are written: decimal numbers separated by blanks or single commas; comments from `%` to the end
of the line; one matrix row per line, or rows separated by semicolons.
-/

namespace Visr.MatrixText

open Visr.RealText

/-- Blanks, tabulators and the other white space characters. -/
def Blank (s : List Char) : Prop := ∀ c ∈ s, c ∈ [' ', '\t', '\n', '\r', '\x0b', '\x0c']

/-- What may stand between two numbers: white space, or a comma with optional white space around it. -/
def Separator (s : List Char) : Prop :=
  (Blank s ∧ s ≠ []) ∨ ∃ a b, Blank a ∧ Blank b ∧ s = a ++ ',' :: b

/-- Numbers separated by separators. -/
inductive Items : List ℚ → List Char → Prop
  | one (l : Literal) : l.Ok → Items [l.val] l.text
  | cons (l : Literal) (sep : List Char) (vs : List ℚ) (t : List Char) :
      l.Ok → Separator sep → Items vs t → Items (l.val :: vs) (l.text ++ sep ++ t)

/-- A comment, or nothing. -/
def Comment (s : List Char) : Prop := s = [] ∨ s.head? = some '%'

/-- A line: optional white space, numbers (or none), optional white space and an optional comment. -/
inductive Line : List ℚ → List Char → Prop
  | empty (a c : List Char) : Blank a → Comment c → Line [] (a ++ c)
  | items (vs : List ℚ) (a t b c : List Char) : Blank a → Items vs t → Blank b → Comment c → Line vs (a ++ t ++ b ++ c)

/-- A text consisting of lines that are ended by a newline or a semicolon. -/
inductive Lines : List (List ℚ) → List Char → Prop
  | last (vs : List ℚ) (t : List Char) : Line vs t → '\n' ∉ t → ';' ∉ t → Lines [vs] t
  | cons (vs : List ℚ) (t : List Char) (b : Char) (vss : List (List ℚ)) (r : List Char) :
      Line vs t → '\n' ∉ t → ';' ∉ t → (b = '\n' ∨ b = ';') → Lines vss r → Lines (vs :: vss) (t ++ b :: r)

/-! ### What is accepted -/

/-- A number as it is accepted: a decimal number, or one of the names of special values, in any case. -/
inductive Number : Num → List Char → Prop
  | literal (l : Literal) : l.Ok → Number (.fin l.val) l.text
  | nan (sg : Sign) (w : List Char) : w.map Char.toLower = "nan".toList → Number .nan (sg.text ++ w)
  | nanOf (sg : Sign) (w a : List Char) : w.map Char.toLower = "nan".toList → Number .nan (sg.text ++ w ++ '(' :: a ++ [')'])
  | inf (sg : Sign) (w : List Char) : w.map Char.toLower = "inf".toList ∨ w.map Char.toLower = "infinity".toList →
      Number (.inf (sg.factor == -1)) (sg.text ++ w)

/-- As `Separator`, but possibly empty. -/
def Joint (s : List Char) : Prop := s = [] ∨ Separator s

/-- Numbers that may also directly follow each other. -/
inductive Accepted : List Num → List Char → Prop
  | one (x : Num) (t : List Char) : Number x t → Accepted [x] t
  | cons (x : Num) (t sep : List Char) (vs : List Num) (r : List Char) :
      Number x t → Joint sep → Accepted vs r → Accepted (x :: vs) (t ++ sep ++ r)

/-- A line as it is accepted. -/
inductive AcceptedLine : List Num → List Char → Prop
  | empty (a c : List Char) : Blank a → Comment c → AcceptedLine [] (a ++ c)
  | items (vs : List Num) (a t b c : List Char) : Blank a → Accepted vs t → Blank b → Comment c →
      AcceptedLine vs (a ++ t ++ b ++ c)

/-- A text consisting of accepted lines that are ended by a newline or a semicolon. -/
inductive AcceptedLines : List (List Num) → List Char → Prop
  | last (vs : List Num) (t : List Char) : AcceptedLine vs t → '\n' ∉ t → ';' ∉ t → AcceptedLines [vs] t
  | cons (vs : List Num) (t : List Char) (b : Char) (vss : List (List Num)) (r : List Char) :
      AcceptedLine vs t → '\n' ∉ t → ';' ∉ t → (b = '\n' ∨ b = ';') → AcceptedLines vss r →
      AcceptedLines (vs :: vss) (t ++ b :: r)

end Visr.MatrixText
