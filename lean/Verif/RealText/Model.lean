import Verif.ChannelList.Model
import Mathlib.Algebra.Field.Rat
import Mathlib.Algebra.Order.Ring.Rat

/-!
# The text of a number

`boost::spirit::qi::real_parser` with its default policies and a preceding ASCII space skipper, as used by
`/repo/src/libpml/matrix_parameter.cpp`, `/repo/src/libpml/vector_parameter.cpp` and
`/repo/src/librbbl/float_sequence.cpp`.

Simplifications: values are exact (no rounding to the floating-point type) and exponents are not limited to the range of
the type.
-/

namespace Visr.RealText

open Visr.ChannelList (isSpace skipWs digitVal readSign)

/-- A value read from a text. -/
inductive Num where
  | fin (q : ℚ)
  | inf (neg : Bool)
  | nan
  deriving DecidableEq

/-- The digits at the beginning of a text. -/
def digits (s : List Char) : List Char := s.takeWhile Char.isDigit

/-- What follows the digits at the beginning of a text. -/
def afterDigits (s : List Char) : List Char := s.dropWhile Char.isDigit

/-- The value of a sequence of digits. -/
def natOf (ds : List Char) : Nat := ds.foldl (fun n c => 10 * n + digitVal c) 0

/-- The value of a number: the digits before and after the point, and the exponent. -/
def value (neg : Bool) (ds fs : List Char) (e : Int) : ℚ :=
  let q := (natOf (ds ++ fs) : ℚ) * (10 : ℚ) ^ (e - (fs.length : Int))
  if neg then -q else q

/-- The exponent (`parse_exp` and `parse_exp_n`).  An `e` that is not followed by a number is not consumed. -/
def withExponent (neg : Bool) (ds fs : List Char) (s : List Char) : Num × List Char :=
  match s with
  | c :: r =>
    if c = 'e' ∨ c = 'E' then
      let sg := readSign r
      if digits sg.2 = [] then (.fin (value neg ds fs 0), s)
      else
        let n : Int := natOf (digits sg.2)
        (.fin (value neg ds fs (if sg.1 then -n else n)), afterDigits sg.2)
    else (.fin (value neg ds fs 0), s)
  | [] => (.fin (value neg ds fs 0), s)

/-- A word in lower or upper case letters (`detail::string_parse`). -/
def word : List Char → List Char → Option (List Char)
  | [], s => some s
  | _ :: _, [] => none
  | w :: ws, c :: cs => if c = w ∨ c = w.toUpper then word ws cs else none

/-- `parse_nan` and `parse_inf`. -/
def special (neg : Bool) (s : List Char) : Option (Num × List Char) :=
  match word "nan".toList s with
  | some r =>
    match r with
    | '(' :: r' =>
      match r'.dropWhile (· ≠ ')') with
      | [] => none
      | _ :: r'' => some (.nan, r'')
    | _ => some (.nan, r)
  | none =>
    match word "inf".toList s with
    | some r => some (.inf neg, (word "inity".toList r).getD r)
    | none => none

/-- `qi::real_parser` without the preceding skipper: the value and the rest of the text. -/
def parseReal (s : List Char) : Option (Num × List Char) :=
  let sg := readSign s
  if digits sg.2 = [] then
    match special sg.1 sg.2 with
    | some x => some x
    | none =>
      match sg.2 with
      | '.' :: r =>
        if digits r = [] then none else some (withExponent sg.1 [] (digits r) (afterDigits r))
      | _ => none
  else
    match afterDigits sg.2 with
    | '.' :: r => some (withExponent sg.1 (digits sg.2) (digits r) (afterDigits r))
    | r => some (withExponent sg.1 (digits sg.2) [] r)

/-- `qi::real_parser` with the preceding skipper. -/
def real (s : List Char) : Option (Num × List Char) := parseReal (skipWs s)

end Visr.RealText
