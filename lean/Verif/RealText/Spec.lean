import Verif.RealText.Model
import Mathlib.Data.Nat.Digits.Defs

/-!
# The text of a number: specification

Decimal numbers as they are usually written.
-/

namespace Visr.RealText

/-- The number denoted by a sequence of decimal digits. -/
def numeral (ds : List Char) : ℕ := Nat.ofDigits 10 ((ds.map fun c => c.toNat - '0'.toNat).reverse)

/-- The sign in front of a number: none, plus or minus. -/
inductive Sign where
  | none
  | plus
  | minus

def Sign.text : Sign → List Char
  | .none => []
  | .plus => ['+']
  | .minus => ['-']

def Sign.factor : Sign → ℤ
  | .minus => -1
  | _ => 1

/-- A decimal number: sign, digits before the point, optionally a point with digits, optionally an exponent. -/
structure Literal where
  sign : Sign
  int : List Char
  frac : Option (List Char)
  exp : Option (Char × Sign × List Char)

/-- At least one digit before or after the point, and at least one in the exponent. -/
structure Literal.Ok (l : Literal) : Prop where
  int : ∀ c ∈ l.int, c.isDigit
  frac : ∀ f, l.frac = some f → ∀ c ∈ f, c.isDigit
  some_digit : l.int ≠ [] ∨ ∃ f, l.frac = some f ∧ f ≠ []
  exp : ∀ x, l.exp = some x → (x.1 = 'e' ∨ x.1 = 'E') ∧ x.2.2 ≠ [] ∧ ∀ c ∈ x.2.2, c.isDigit

/-- How the number is written. -/
def Literal.text (l : Literal) : List Char :=
  l.sign.text ++ l.int ++ (match l.frac with | .none => [] | some f => '.' :: f) ++
    (match l.exp with | .none => [] | some x => x.1 :: x.2.1.text ++ x.2.2)

/-- The power of ten. -/
def Literal.power (l : Literal) : ℤ :=
  match l.exp with
  | .none => 0
  | some x => x.2.1.factor * numeral x.2.2

/-- The value of the number. -/
def Literal.val (l : Literal) : ℚ :=
  l.sign.factor * (numeral l.int + (match l.frac with | .none => 0 | some f => (numeral f : ℚ) / 10 ^ f.length)) *
    (10 : ℚ) ^ l.power

/-- A text that does not continue a number. -/
def Stops (s : List Char) : Prop := ∀ c ∈ s.head?, c.isDigit = false ∧ c ≠ '.' ∧ c ≠ 'e' ∧ c ≠ 'E'

end Visr.RealText
