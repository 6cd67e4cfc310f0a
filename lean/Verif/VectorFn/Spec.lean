import Verif.VectorFn.Model

/-!
# What the vector functions compute

The formulas, written without the model of the functions.
-/

namespace Visr.VectorFn

/-- The element `i` behind a pointer. -/
def cell [Zero K] (h : Heap K) (p : Ptr) (i : Nat) : K := (h p.obj).getD (p.idx + i) 0

/-- The `n` elements behind a pointer are inside of its array. -/
def InBounds (h : Heap K) (p : Ptr) (n : Nat) : Prop := p.idx + n ≤ (h p.obj).length

/-- Two ranges of `n` elements are the same or have no element in common. -/
def SameOrDisjoint (n : Nat) (p q : Ptr) : Prop :=
  p.obj ≠ q.obj ∨ p.idx = q.idx ∨ p.idx + n ≤ q.idx ∨ q.idx + n ≤ p.idx

/-- The memory afterwards differs from that before in the `n` elements behind `out`, which are the given values. -/
def Written (h h' : Heap K) (out : Ptr) (n : Nat) (g : Nat → K) : Prop :=
  ∀ o x, (h' o)[x]? = if o = out.obj ∧ out.idx ≤ x ∧ x < out.idx + n then some (g (x - out.idx)) else (h o)[x]?

/-- An element of a ramp of `n` elements (see `Efl/PropsRamp.lean` for the meaning): equal steps from the start to the end, where
the start (end) is the first (last) element or the one before (after) it. A single element is the start or the end. -/
def rampAt [Field K] (n i : Nat) (a b : K) (includeStart includeEnd : Bool) : K :=
  if n = 1 then (if includeStart then a else b)
  else
    match includeStart, includeEnd with
    | true, true => a + i * ((b - a) / ((n - 1 : Nat) : K))
    | true, false => a + i * ((b - a) / (n : K))
    | false, true => a + ((i + 1 : Nat) : K) * ((b - a) / (n : K))
    | false, false => a + ((i + 1 : Nat) : K) * ((b - a) / ((n + 1 : Nat) : K))

/-- Element `i` of the result, from the elements `i` of the read-only arrays `a`, `b`, `c` (in the order of the parameters) and
the previous element `y` of the array that is written. -/
def formula [Field K] (op : Op K) (n i : Nat) (a b c y : K) : K :=
  match op with
  | .zero => 0
  | .fill v => v
  | .ramp s e si ei => rampAt n i s e si ei
  | .copy => a
  | .add => a + b
  | .addInplace => a + y
  | .addConstant k => a + k
  | .addConstantInplace k => y + k
  | .subtract => a - b
  | .subtractInplace => a - y
  | .subtractConstant k => a - k
  | .subtractConstantInplace k => y - k
  | .multiply => a * b
  | .multiplyInplace => a * y
  | .multiplyConstant k => k * a
  | .multiplyConstantInplace k => k * y
  | .multiplyAdd => a * b + c
  | .multiplyAddInplace => a * b + y
  | .multiplyConstantAdd k => k * a + b
  | .multiplyConstantAddInplace k => k * a + y
  | .rampScaling g r accumulate => (if accumulate then y else 0) + (g + r * b) * a

end Visr.VectorFn
