import Verif.PyVector.Model
import Verif.VectorFn.Spec

/-!
# Calls from Python: what is meant
-/

namespace Visr.PyVector

open VectorFn

/-- A function with other constants. -/
def mapConst (f : A → B) : Op A → Op B
  | .zero => .zero
  | .fill v => .fill (f v)
  | .ramp s e si ei => .ramp (f s) (f e) si ei
  | .copy => .copy
  | .add => .add
  | .addInplace => .addInplace
  | .addConstant c => .addConstant (f c)
  | .addConstantInplace c => .addConstantInplace (f c)
  | .subtract => .subtract
  | .subtractInplace => .subtractInplace
  | .subtractConstant c => .subtractConstant (f c)
  | .subtractConstantInplace c => .subtractConstantInplace (f c)
  | .multiply => .multiply
  | .multiplyInplace => .multiplyInplace
  | .multiplyConstant c => .multiplyConstant (f c)
  | .multiplyConstantInplace c => .multiplyConstantInplace (f c)
  | .multiplyAdd => .multiplyAdd
  | .multiplyAddInplace => .multiplyAddInplace
  | .multiplyConstantAdd c => .multiplyConstantAdd (f c)
  | .multiplyConstantAddInplace c => .multiplyConstantAddInplace (f c)
  | .rampScaling g r acc => .rampScaling (f g) (f r) acc

/-- The constants of a call. -/
def consts : Op A → List A
  | .fill v | .addConstant v | .addConstantInplace v | .subtractConstant v | .subtractConstantInplace v | .multiplyConstant v
  | .multiplyConstantInplace v | .multiplyConstantAdd v | .multiplyConstantAddInplace v => [v]
  | .ramp s e _ _ => [s, e]
  | .rampScaling g r _ => [g, r]
  | _ => []

/-- The Python number for a constant of an element type: `float` or `complex`. -/
def python (t : Ty) (v : K) : Scalar K := if t.isComplex then .complex v else .float v

/-- The container and the element type of an argument, if the functions support them. -/
def kindOf : Arg → Option (Container × Ty)
  | .array a => match a.dtype with
    | .num t => some (.pyArray, t)
    | .other _ => none
  | .vec t _ => some (.basicVector, t)

/-- Where the first element of an argument is. -/
def ptrOf : Arg → Ptr
  | .array a => a.ptr
  | .vec _ o => ⟨o, 0⟩

/-- The argument is a sequence of at least `n` elements without gaps. -/
def Usable (m : Mem K) (n : Nat) : Arg → Prop
  | .array a => ∃ size, n ≤ size ∧ a.shape = [size] ∧ a.strides = [1]
  | .vec _ o => n ≤ (m.heap o).length

/-- The argument can be changed. -/
def Writeable : Arg → Prop
  | .array a => a.writeable = true
  | .vec _ _ => True

/-- The argument is an array of Python: there are as many strides as dimensions; it is in existing memory, and so are its elements
if they are a sequence without gaps. -/
def Valid (m : Mem K) : Arg → Prop
  | .array a => a.ptr.obj < m.next ∧ a.strides.length = a.shape.length ∧
      ∀ size, a.shape = [size] → a.strides = [1] → a.ptr.idx + size ≤ (m.heap a.ptr.obj).length
  | .vec _ o => o < m.next

end Visr.PyVector
