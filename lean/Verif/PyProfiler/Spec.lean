import Verif.PyProfiler.Model
import Verif.Profiler.Spec

/-!
# What Python should retrieve: the most recent iterations, oldest first
-/

namespace Visr.PyProfiler

open Visr Visr.Profiler

/-- The last `B` elements of a list, in order; the whole list if it is shorter. -/
def recent {α : Type u} (B : Nat) (l : List α) : List α := l.drop (l.length - B)

/-- The iterations since the measurements were last reset or retrieved, oldest first. -/
abbrev iterations {K : Type u} [Field K] (N : Nat) (ops : List (Op K)) : List (Fin N → K) := (log N ops).forMeasurements

/-- No other thread retrieves the measurements. -/
def OnlyReader {K : Type u} (between : List (Op K)) : Prop := Op.getMeasurements ∉ between

end Visr.PyProfiler
