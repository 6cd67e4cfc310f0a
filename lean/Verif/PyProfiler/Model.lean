import Verif.Profiler.Model

/-!
# The measurements of the profiler in Python

`getMeasurements` of the Python class `RuntimeProfiler` (`/repo/src/python/rrl/runtime_profiler.cpp:37-76`), on top of the
model of the profiler in `Verif/Profiler`.
-/

namespace Visr.PyProfiler

open Visr Visr.Profiler

variable {K : Type u} {N B : Nat}

/-- One of the two copy loops (`runtime_profiler.cpp:57-64` and `:67-74`): `n` rows, beginning with row `src`. Rows outside
of the buffer must not be read. The destination has as many rows as the two loops fill (`:46-50`). -/
def copyRows (m : Fin B → Fin N → K) (src : Nat) : Nat → Outcome (List (Fin N → K))
  | 0 => .ok []
  | n + 1 =>
    if h : src < B then
      match copyRows m (src + 1) n with
      | .ok rows => .ok (m ⟨src, h⟩ :: rows)
      | .throw e => .throw e
      | .ub => .ub
    else .ub

/-- The first loop and the second one. -/
def append : Outcome (List (Fin N → K)) → Outcome (List (Fin N → K)) → Outcome (List (Fin N → K))
  | .ok a, .ok b => .ok (a ++ b)
  | .ok _, .throw e => .throw e
  | .ok _, .ub => .ub
  | .throw e, _ => .throw e
  | .ub, _ => .ub

/-- The rows of the array (`runtime_profiler.cpp:46-75`). `all`: the number of iterations that came with the buffer `m`;
`now`: the result of the call of `measurementSamples` in line 54, if it is reached. `now % 0` is undefined. -/
def arrange (m : Fin B → Fin N → K) (all now : Nat) : Outcome (List (Fin N → K)) :=
  if B < all then
    if B = 0 then .ub
    else append (copyRows m (now % B) (B - now % B)) (copyRows m 0 (min all B - (B - now % B)))
  else copyRows m 0 (min all B)

/-- `getMeasurements` of the Python class (`runtime_profiler.cpp:37-76`): the returned array, by rows, and the state of the
profiler. `between`: the calls of other threads, in particular of the audio thread, after the buffers are exchanged and
before the lock is taken again in line 54. The buffer is read through a reference to the member (`:41-45`). -/
def getMeasurements [Field K] (s : State K N B) (between : List (Op K)) : Outcome (List (Fin N → K)) × State K N B :=
  (arrange (final step (Profiler.getMeasurements s).2.2 between).back (Profiler.getMeasurements s).1
      (measurementSamples (final step (Profiler.getMeasurements s).2.2 between)),
    final step (Profiler.getMeasurements s).2.2 between)

end Visr.PyProfiler
