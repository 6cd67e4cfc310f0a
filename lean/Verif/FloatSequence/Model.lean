import Verif.Outcome
import Verif.RealText.Lemmas
import Mathlib.Algebra.Order.Floor.Ring
import Mathlib.Data.Rat.Floor
import Mathlib.Algebra.Order.Field.Basic
import Mathlib.Tactic.Linarith
import Mathlib.Tactic.FieldSimp

/-!
# Sequences of numbers and ranges read from text

`/repo/src/librbbl/float_sequence.cpp` lines 43-156.

Simplifications: values are exact.  In the code they are single-precision numbers (`qi::float_`), which are rounded when
they are read and when ranges are enumerated; ranges whose increment is lost by rounding do not end.
-/

namespace Visr.FloatSequence

open Visr.ChannelList (skipWs)
open Visr.RealText

/-- `<=` on floating-point values. -/
def le : Num → Num → Bool
  | .fin a, .fin b => a ≤ b
  | .nan, _ => false
  | _, .nan => false
  | .inf true, _ => true
  | _, .inf false => true
  | _, _ => false

/-- `+` on floating-point values. -/
def add : Num → Num → Num
  | .fin a, .fin b => .fin (a + b)
  | .nan, _ => .nan
  | _, .nan => .nan
  | .inf a, .inf b => if a = b then .inf a else .nan
  | .inf a, .fin _ => .inf a
  | .fin _, .inf b => .inf b

theorem up_measure (v i e : ℚ) (h : 0 < i ∧ v ≤ e) :
    (⌊(e - (v + i)) / i⌋ + 1).toNat < (⌊(e - v) / i⌋ + 1).toNat := by
  have h1 : (e - (v + i)) / i = (e - v) / i - 1 := by
    have := ne_of_gt h.1
    field_simp
    ring
  have h2 : 0 ≤ ⌊(e - v) / i⌋ := Int.floor_nonneg.2 (div_nonneg (by linarith [h.2]) h.1.le)
  rw [h1, Int.floor_sub_one]
  omega

/-- The loop of an ascending range of finite values: lines 89-93 and lines 75-79. -/
def up (v i e : ℚ) : List ℚ :=
  if h : 0 < i ∧ v ≤ e then v :: up (v + i) i e else []
termination_by (⌊(e - v) / i⌋ + 1).toNat
decreasing_by exact up_measure v i e h

theorem down_measure (v i e : ℚ) (h : i < 0 ∧ e ≤ v) :
    (⌊(e - (v + i)) / i⌋ + 1).toNat < (⌊(e - v) / i⌋ + 1).toNat := by
  have h1 : (e - (v + i)) / i = (e - v) / i - 1 := by
    have := ne_of_lt h.1
    field_simp
    ring
  have h2 : 0 ≤ ⌊(e - v) / i⌋ := Int.floor_nonneg.2 (div_nonneg_of_nonpos (by linarith [h.2]) h.1.le)
  rw [h1, Int.floor_sub_one]
  omega

/-- The loop of a descending range of finite values: lines 97-101. -/
def down (v i e : ℚ) : List ℚ :=
  if h : i < 0 ∧ e ≤ v then v :: down (v + i) i e else []
termination_by (⌊(e - v) / i⌋ + 1).toNat
decreasing_by exact down_measure v i e h

/-- A loop with a value that is not finite: lines 75-79, 89-93 and 97-101.  If it is entered twice, the condition holds in
all further iterations; it ends when the memory is exhausted. -/
def loop (within : Num → Bool) (v i : Num) : Outcome (List Num) :=
  if within v then
    if within (add v i) then .throw .badAlloc else .ok [v]
  else .ok []

/-- Is the increment of a range positive (line 87)? -/
def positive : Num → Bool
  | .fin i => 0 < i
  | .inf neg => !neg
  | .nan => false

/-- `std::abs( inc ) < epsilon`: line 82. -/
def tiny (eps : ℚ) : Num → Bool
  | .fin i => |i| < eps
  | _ => false

/-- The values of a range: lines 71-80 and 86-102. -/
def range (v i e : Num) : Outcome (List Num) :=
  match v, i, e with
  | .fin v, .fin i, .fin e =>
    if 0 < i then .ok ((up v i e).map .fin) else .ok ((down v i e).map .fin)
  | v, i, e =>
    if positive i then loop (fun x => le x e) v i else loop (fun x => le e x) v i

/-- `ParseState::finish`: lines 58-113. The parameter is the machine precision of the number type. -/
def finish (eps : ℚ) : List Num → Outcome (List Num)
  | [] => .throw .invalidArgument
  | [x] => .ok [x]
  | [a, b] => range a (.fin 1) b
  | [a, i, b] => if tiny eps i then .throw .cString else range a i b
  | _ => .throw .invalidArgument

/-- The further values of the list `number % ':'`: line 126. The guard on the length always holds; it makes the recursion
well-founded. -/
def colons (s : List Char) : List Num × List Char :=
  match skipWs s with
  | ':' :: r =>
    match real r with
    | none => ([], s)
    | some (x, r') =>
      if r'.length < s.length then
        let y := colons r'
        (x :: y.1, y.2)
      else ([x], r')
  | _ => ([], s)
termination_by s.length

/-- The list `number % ':'`: line 126. -/
def group (s : List Char) : Option (List Num × List Char) :=
  match real s with
  | none => none
  | some (x, r) => some (x :: (colons r).1, (colons r).2)

/-- The further groups of the list: line 126.  Each is finished as soon as it has been read. -/
def groups (eps : ℚ) (s : List Char) : Outcome (List Num × List Char) :=
  match skipWs s with
  | ',' :: r =>
    match group r with
    | none => .ok ([], s)
    | some (g, r') =>
      match finish eps g with
      | .throw e => .throw e
      | .ub => .ub
      | .ok v =>
        if r'.length < s.length then
          match groups eps r' with
          | .throw e => .throw e
          | .ub => .ub
          | .ok y => .ok (v ++ y.1, y.2)
        else .ok (v, r')
  | _ => .ok ([], s)
termination_by s.length

/-- The constructor from a text: lines 43-135. -/
def parse (eps : ℚ) (s : List Char) : Outcome (List Num) :=
  match group s with
  | none => .throw .invalidArgument
  | some (g, r) =>
    match finish eps g with
    | .throw e => .throw e
    | .ub => .ub
    | .ok v =>
      match groups eps r with
      | .throw e => .throw e
      | .ub => .ub
      | .ok y => if skipWs y.2 = [] then .ok (v ++ y.1) else .throw .invalidArgument

/-- `toString`: lines 143-152, for a given notation of numbers. The separator after the last value is removed by taking
all but its length from the text; for an empty sequence this length wraps around, and the text is empty. -/
def toText (fmt : ℚ → List Char) (sep : List Char) (vs : List ℚ) : List Char :=
  let str := vs.flatMap fun v => fmt v ++ sep
  str.take (if sep.length ≤ str.length then str.length - sep.length else str.length)

end Visr.FloatSequence
