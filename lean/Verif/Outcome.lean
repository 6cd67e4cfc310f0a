/-!
# Outcomes of C++ operations

A C++ operation of the modelled code either returns normally, throws one of the standard exceptions, or
reaches undefined behaviour. Undefined behaviour is a distinct outcome of the model, never silently totalised.
-/

namespace Visr

/-- The exception types thrown by the modelled code. `cString` stands for `throw("...")`, which throws a
`char const *` and is therefore not a `std::exception` (`librbbl/index_sequence.cpp:53`). -/
inductive Exn where
  | invalidArgument
  | outOfRange
  | logicError
  | runtimeError
  | badCast
  | badAlloc
  | cString
  deriving DecidableEq, Repr

/-- Result of running a C++ operation. -/
inductive Outcome (α : Type u) where
  | ok (a : α)
  | throw (e : Exn)
  | ub
  deriving DecidableEq, Repr

namespace Outcome

variable {α : Type u} {β : Type v}

def bind (x : Outcome α) (f : α → Outcome β) : Outcome β :=
  match x with
  | .ok a => f a
  | .throw e => .throw e
  | .ub => .ub

instance : Monad Outcome where
  pure := .ok
  bind := bind

@[simp] theorem pure_eq (a : α) : (pure a : Outcome α) = .ok a := rfl
@[simp] theorem ok_bind {α β : Type u} (a : α) (f : α → Outcome β) : (Outcome.ok a >>= f) = f a := rfl
@[simp] theorem throw_bind {α β : Type u} (e : Exn) (f : α → Outcome β) :
    ((Outcome.throw e : Outcome α) >>= f) = .throw e := rfl
@[simp] theorem ub_bind {α β : Type u} (f : α → Outcome β) : ((Outcome.ub : Outcome α) >>= f) = .ub := rfl

def isOk : Outcome α → Bool
  | .ok _ => true
  | _ => false

def map (f : α → β) : Outcome α → Outcome β
  | .ok a => .ok (f a)
  | .throw e => .throw e
  | .ub => .ub

end Outcome
end Visr
