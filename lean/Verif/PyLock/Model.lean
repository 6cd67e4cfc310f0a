import Verif.Outcome

/-!
# The interpreter lock around Python components

`libpythonsupport/initialisation_guard.cpp`, `libpythonsupport/gil_ensure_guard.cpp` and the construction and destruction of
`pythoncomponents::Wrapper` (`libpythoncomponents/wrapper.cpp`), executed by any number of threads in any order.

CPython: `PyGILState_Ensure` waits until the lock is free unless the thread holds it already, `PyGILState_Release` undoes the
last call; Python objects may only be used by the thread that holds the lock, and only after the interpreter is initialised.
Anything else is undefined behaviour.

Simplifications: a sequence of uses of Python objects within one scope counts as a few uses; Python code does not give up
the lock in between (`sys.setswitchinterval`), which does not matter for whether the thread holds it when it goes on; the end
of the interpreter at the end of the program is not modelled.
-/

namespace Visr.PyLock

/-- The steps of a thread that concern the interpreter. -/
inductive Instr where
  /-- `InitialisationGuard::initialise` (`initialisation_guard.cpp:63-67`) -/
  | initialise
  /-- Constructor of `GilEnsureGuard` (`gil_ensure_guard.cpp:17-21`) -/
  | acquire
  /-- Destructor of `GilEnsureGuard` (`gil_ensure_guard.cpp:23-26`) -/
  | release
  /-- Use of a Python object, including a change of its reference count. -/
  | touch
  deriving DecidableEq, Repr

/-- Where the construction of a wrapper fails (`wrapper.cpp:111-248`). -/
inductive Stage where
  /-- `loadModule` (lines 118-125) -/
  | load
  /-- the class is looked up in the module (lines 138-152) -/
  | lookup
  /-- the arguments are evaluated (lines 154-169) -/
  | arguments
  /-- the class is instantiated (lines 171-181) -/
  | instantiate
  /-- the object is not a component (lines 183-191) -/
  | cast
  /-- the ports are connected (lines 195-246) -/
  | connect
  deriving DecidableEq, Repr

/-- The members of `Wrapper::Impl` that refer to Python objects at this point: `mModule` (line 120), `mComponentClass`
(line 147), `mComponentWrapper` (line 173). `mGlobals` is never set. -/
def members : Stage → Nat
  | .load => 0
  | .lookup => 1
  | .arguments => 2
  | .instantiate => 2
  | .cast => 3
  | .connect => 3

/-- What a thread does. -/
inductive Action where
  | initialise
  /-- The constructor of a wrapper, which succeeds or fails. -/
  | construct (failure : Option Stage)
  /-- The destructor of a wrapper. -/
  | destroy
  /-- A method of a Python component is called from C++ (pybind11: `gil_scoped_acquire` in the trampoline). -/
  | call
  /-- A `GilEnsureGuard` of the application around other actions (`apps/visr_renderer/main.cpp:161-181`). -/
  | guarded (body : List Action)

/-- The constructor `Wrapper::Impl::Impl` (`wrapper.cpp:101-248`). If its body is left by an exception, first its local
variables are destroyed, the guard last, and then the members ([except.ctor]). -/
def construct : Option Stage → List Instr
  | none => [.acquire, .touch, .touch, .release]
  | some s => [.acquire, .touch, .touch, .release] ++ List.replicate (members s) .touch

/-- The destructor `Wrapper::~Wrapper` (`wrapper.cpp:250-255`): the members are destroyed while the guard exists. -/
def destroy : List Instr := [.acquire, .touch, .touch, .touch, .release]

mutual
/-- The steps of an action. -/
def steps : Action → List Instr
  | .initialise => [.initialise]
  | .construct f => construct f
  | .destroy => destroy
  | .call => [.acquire, .touch, .release]
  | .guarded body => [.acquire] ++ program body ++ [.release]
/-- The steps of a sequence of actions. -/
def program : List Action → List Instr
  | [] => []
  | a :: as => steps a ++ program as
end

/-- The state of the interpreter and what each thread still has to do. `owner`: the thread which holds the lock, and how
often. -/
structure State where
  initialised : Bool
  owner : Option (Nat × Nat)
  rest : Nat → List Instr

/-- The start: no interpreter, each thread at the beginning of its actions. -/
def start (threads : Nat → List Action) : State := ⟨false, none, fun t => program (threads t)⟩

/-- The thread continues with the next step. -/
def State.advance (s : State) (t : Nat) (l : List Instr) : Nat → List Instr := fun u => if u = t then l else s.rest u

/-- `PyEval_SaveThread` (`initialisation_guard.cpp:34`): the calling thread gives up the lock completely. -/
def saveThread (_owner : Option (Nat × Nat)) : Option (Nat × Nat) := none

/-- One step of a thread. A thread that waits for the lock, or has nothing to do, does not change anything.
`initialise`: the constructor of the static object, which the first thread executes while others wait for it
([stmt.dcl]), creates the interpreter, which gives the lock to the thread, and releases it (`initialisation_guard.cpp:23-39`).
-/
def step (s : State) (t : Nat) : Outcome State :=
  match s.rest t with
  | [] => .ok s
  | .initialise :: l =>
    if s.initialised then .ok ⟨true, s.owner, s.advance t l⟩
    else .ok ⟨true, saveThread (some (t, 1)), s.advance t l⟩
  | .acquire :: l =>
    if s.initialised then
      match s.owner with
      | none => .ok ⟨s.initialised, some (t, 1), s.advance t l⟩
      | some (u, d) => if u = t then .ok ⟨s.initialised, some (t, d + 1), s.advance t l⟩ else .ok s
    else .ub
  | .release :: l =>
    match s.owner with
    | some (u, d) =>
      if u = t then .ok ⟨s.initialised, if d ≤ 1 then none else some (t, d - 1), s.advance t l⟩ else .ub
    | none => .ub
  | .touch :: l =>
    match s.owner with
    | some (u, _) => if u = t then .ok ⟨s.initialised, s.owner, s.advance t l⟩ else .ub
    | none => .ub

/-- The threads run in the given order. -/
def run (s : State) : List Nat → Outcome State
  | [] => .ok s
  | t :: ts =>
    match step s t with
    | .ok s' => run s' ts
    | .throw e => .throw e
    | .ub => .ub

end Visr.PyLock
