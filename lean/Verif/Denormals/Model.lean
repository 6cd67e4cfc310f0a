/-!
# Model of the handling of denormalised numbers

Models `/repo/src/libefl/denormalised_number_handling.cpp` and `.hpp`, and the overloads of
`/repo/src/python/efl/denormalised_number_handling.cpp`. Each thread of a program has its own control word (MXCSR), read
and written by `_mm_getcsr()` and `_mm_setcsr()`. That the processor has a flag for denormalised operands is assumed.
-/

namespace Visr.Denormals

/-- The control word. -/
abbrev Word := BitVec 32

/-- `State` (`denormalised_number_handling.hpp:32-52`). -/
structure State where
  flushToZero : Bool
  denormalsAreZero : Bool
  deriving DecidableEq, Repr

/-- The constructor without arguments (`denormalised_number_handling.hpp:34-37`). -/
def State.default : State := ⟨false, false⟩

/-- `cDenormsAreZeroMask` (`denormalised_number_handling.cpp:23`). -/
def dazMask : Word := 1#32 <<< 6

/-- `cFlushToZeroMask` (`denormalised_number_handling.cpp:25`). -/
def ftzMask : Word := 1#32 <<< 15

/-- `cCwMask` (`denormalised_number_handling.cpp:27`). -/
def cwMask : Word := ~~~(dazMask ||| ftzMask)

/-- `setDenormHandling( State )` on the control word `old` (`denormalised_number_handling.cpp:42-64`); `intel` tells for
which platform the library is built. Returns the new control word and the result. -/
def set (intel : Bool) (old : Word) (new : State) : Word × State :=
  if intel then
    let oldDaz := (old &&& dazMask) != 0
    let oldFtz := (old &&& ftzMask) != 0
    let w := old &&& cwMask
    let w := if new.denormalsAreZero then w ||| dazMask else w
    let w := if new.flushToZero then w ||| ftzMask else w
    (w, ⟨oldFtz, oldDaz⟩)
  else (old, State.default)

/-- The control words of the threads of a program. -/
abbrev Machine := Nat → Word

/-- Calls. -/
inductive Op where
  /-- `setDenormHandling()` -/
  | setDefault
  /-- `setDenormHandling( newState )` -/
  | set (new : State)
  /-- `resetDenormHandling( stateToRestore )` -/
  | reset (old : State)

/-- A call in thread `t` (`denormalised_number_handling.cpp:32-64`): the result is that of the called function; `none` for
`void`. -/
def call (intel : Bool) (m : Machine) (t : Nat) : Op → Machine × Option State
  | .setDefault =>
    let r := set intel (m t) ⟨true, true⟩
    (fun k => if k = t then r.1 else m k, some r.2)
  | .set new =>
    let r := set intel (m t) new
    (fun k => if k = t then r.1 else m k, some r.2)
  | .reset old =>
    let r := set intel (m t) old
    (fun k => if k = t then r.1 else m k, none)

/-- Arguments of the Python function `setDenormHandling`: none, a state, or the flags, which may be left out. -/
inductive PyArgs where
  | none
  | state (s : State)
  | flags (ftz daz : Option Bool)

/-- The overloads of the Python binding in the order in which they are tried
(`python/efl/denormalised_number_handling.cpp:43-60`). Without arguments, the first one fits. -/
def pySet : PyArgs → Op
  | .none => .setDefault
  | .state s => .set s
  | .flags .none .none => .setDefault
  | .flags ftz daz => .set ⟨ftz.getD false, daz.getD false⟩

/-- A history of calls in several threads. -/
def exec (intel : Bool) (m : Machine) : List (Nat × Op) → Machine
  | [] => m
  | (t, o) :: os => exec intel (call intel m t o).1 os

end Visr.Denormals
