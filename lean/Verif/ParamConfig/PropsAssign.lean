import Verif.ParamConfig.Props

/-!
# C97: refused assignments of parameters
-/

namespace Visr.ParamConfig
open Visr Visr.TypeId

/-- **C97.** Parameters of different classes are never assigned; the exception is `std::invalid_argument`. -/
theorem other_class_refused {c d : Cls} (h : c ≠ d) (v w : Value) : assign c d v w = .throw .invalidArgument := by
  unfold assign
  exact if_pos h

/-- **C97 (negation, panning matrices).** A panning matrix that is not square cannot even be assigned to a panning matrix of
the same size, and one that is square can be assigned to those of all other sizes. -/
theorem panning_assignment (k k' : Nat) (rows rows') :
    assign .panningMatrix .panningMatrix (.panning k rows) (.panning k' rows') =
      if k' = rows'.length then .ok (.panning k' rows') else .throw .invalidArgument := by
  unfold assign assignSame
  rw [if_neg (by decide)]
  dsimp only
  by_cases h : k' = rows'.length <;> simp [h]

example : assign .panningMatrix .panningMatrix (.panning 2 [[none, none]]) (.panning 2 [[none, none]]) =
    .throw .invalidArgument := by decide
example : assign .panningMatrix .panningMatrix (.panning 2 []) (.panning 1 [[none]]) = .ok (.panning 1 [[none]]) := by decide
example : assign .vectorFloat .vectorDouble (.vector []) (.vector []) = .throw .invalidArgument :=
  other_class_refused (by decide) _ _

end Visr.ParamConfig
