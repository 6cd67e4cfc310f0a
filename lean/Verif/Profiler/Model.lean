import Verif.Run
import Mathlib.Algebra.Field.Defs
import Mathlib.Logic.Function.Basic
import Mathlib.Data.Nat.Cast.Defs

/-!
# Model of the runtime profiler

`/repo/src/librrl/runtime_profiler.cpp` and its use in `AudioSignalFlow::process`
(`/repo/src/librrl/audio_signal_flow.cpp:219-262`).

`N` is the number of profiled components, `B` the size of the measurement buffer.  Timings are
elements of a field `K`; rounding is not modelled.  Results that can be NaN are of type
`Option K`, where `none` is NaN.  The mutex is not modelled: operations are atomic.
Alignment errors of the vector functions cannot occur for the internal buffers and are left out.
-/

namespace Visr.Profiler

variable {K : Type u} {N B : Nat}

/-- State of a profiler (runtime_profiler.hpp, members). -/
structure State (K : Type u) (N B : Nat) where
  /-- `mMeasurementSampleCounter`. -/
  measurementCount : Nat
  /-- `mStatisticsSampleCounter`. -/
  statisticsCount : Nat
  /-- `mCurrentData`. -/
  current : Fin N → K
  /-- `mCurrentMeasurementBuffer`, by row. -/
  front : Fin B → Fin N → K
  /-- `mBackMeasurementBuffer`, by row. -/
  back : Fin B → Fin N → K
  /-- `mRunningMean`. -/
  mean : Fin N → K
  /-- `mRunningM2`. -/
  m2 : Fin N → K

/-- Constructor (runtime_profiler.cpp:26-43); vectors and matrices are constructed with zeros
(basic_vector.hpp:45-49, basic_matrix.hpp:45-50). -/
def init [Field K] : State K N B where
  measurementCount := 0
  statisticsCount := 0
  current := fun _ => 0
  front := fun _ _ => 0
  back := fun _ _ => 0
  mean := fun _ => 0
  m2 := fun _ => 0

/-- `setTime` (runtime_profiler.cpp:52-59); `AudioSignalFlow::process` writes the same element
directly (audio_signal_flow.cpp:239). -/
def setTime (s : State K N B) (idx : Nat) (timing : K) : Outcome (State K N B) :=
  if h : idx < N then .ok { s with current := Function.update s.current ⟨idx, h⟩ timing }
  else .throw .outOfRange

/-- The statistics part of `finishIteration` (runtime_profiler.cpp:61-109), for the new values of
`mRunningMean` and `mRunningM2`. -/
def updateStatistics [Field K] (s : State K N B) : (Fin N → K) × (Fin N → K) :=
  if s.statisticsCount = 0 then
    (s.current, s.m2)
  else
    let invCount : K := 1 / ((s.statisticsCount + 1 : Nat) : K)
    let tmp := fun i => s.current i - s.mean i
    let tmp2 := fun i => invCount * tmp i
    let mean := fun i => s.mean i + tmp2 i
    let tmp2' := fun i => s.current i - mean i
    (mean, fun i => s.m2 i + tmp i * tmp2' i)

/-- `finishIteration` (runtime_profiler.cpp:61-129). -/
def finishIteration [Field K] (s : State K N B) : State K N B :=
  let st := updateStatistics s
  { s with
    mean := st.1
    m2 := st.2
    front := if h : 0 < B then
        Function.update s.front ⟨s.measurementCount % B, Nat.mod_lt _ h⟩ s.current
      else s.front
    statisticsCount := s.statisticsCount + 1
    measurementCount := s.measurementCount + 1 }

/-- `resetMeasurements` (runtime_profiler.cpp:131-136). -/
def resetMeasurements (s : State K N B) : State K N B := { s with measurementCount := 0 }

/-- `calculateVariance` (runtime_profiler.cpp:286-306). -/
def calculateVariance [Field K] (s : State K N B) : Fin N → Option K :=
  if s.statisticsCount < 2 then fun _ => none
  else fun i => some (1 / ((s.statisticsCount - 1 : Nat) : K) * s.m2 i)

/-- What `getStatistics` returns: the two vectors and the number of iterations. -/
structure Statistics (K : Type u) (N : Nat) where
  /-- The vector `mean`. -/
  mean : Fin N → Option K
  /-- The vector `variance`. -/
  variance : Fin N → Option K
  /-- The return value. -/
  count : Nat

/-- `getStatistics` (runtime_profiler.cpp:138-158), called with vectors of the given sizes. -/
def getStatistics [Field K] (s : State K N B) (meanSize varSize : Nat) : Outcome (Statistics K N) :=
  if meanSize ≠ N then .throw .invalidArgument
  else if varSize ≠ N then .throw .invalidArgument
  else .ok ⟨fun i => some (s.mean i), calculateVariance s, s.statisticsCount⟩

/-- `resetStatistics` (runtime_profiler.cpp:184-191). -/
def resetStatistics [Field K] (s : State K N B) : State K N B :=
  { s with statisticsCount := 0, mean := fun _ => 0, m2 := fun _ => 0 }

/-- `getAndResetStatistics` (runtime_profiler.cpp:160-182). -/
def getAndResetStatistics [Field K] (s : State K N B) (meanSize varSize : Nat) :
    Outcome (Statistics K N × State K N B) :=
  if meanSize ≠ N then .throw .invalidArgument
  else if varSize ≠ N then .throw .invalidArgument
  else .ok (⟨fun i => some (s.mean i), calculateVariance s, s.statisticsCount⟩,
    { s with statisticsCount := 0, mean := fun _ => 0, m2 := fun _ => 0 })

/-- `getMean` (runtime_profiler.cpp:254-270): the vector is filled with NaN if there is no
iteration, and then overwritten in any case. -/
def getMean (s : State K N B) (size : Nat) : Outcome (Fin N → Option K) :=
  if size ≠ N then .throw .invalidArgument
  else
    -- :260-263 fill `val` with NaN if `statisticsCount < 1`; :267 overwrites it
    .ok (fun i => some (s.mean i))

/-- `getVariance` (runtime_profiler.cpp:272-284). -/
def getVariance [Field K] (s : State K N B) (size : Nat) : Outcome (Fin N → Option K) :=
  if size ≠ N then .throw .invalidArgument else .ok (calculateVariance s)

/-- `getMeasurements` (runtime_profiler.cpp:243-252): number of iterations, returned buffer and
new state. -/
def getMeasurements (s : State K N B) : Nat × (Fin B → Fin N → K) × State K N B :=
  (s.measurementCount, s.front,
    { s with front := s.back, back := s.front, measurementCount := 0 })

/-- `measurementSamples` (runtime_profiler.cpp:198-203). -/
def measurementSamples (s : State K N B) : Nat := s.measurementCount

/-- `statisticsSamples` (runtime_profiler.cpp:206-211). -/
def statisticsSamples (s : State K N B) : Nat := s.statisticsCount

/-- The calls that change a profiler. -/
inductive Op (K : Type u) where
  /-- a component has been measured -/
  | setTime (idx : Nat) (timing : K)
  /-- all components of an iteration have been measured -/
  | finish
  | resetMeasurements
  | resetStatistics
  | getAndResetStatistics (meanSize varSize : Nat)
  | getMeasurements

/-- One call; a throwing call leaves the state as it is. -/
def step [Field K] (s : State K N B) : Op K → State K N B × Unit
  | .setTime idx t =>
    match setTime s idx t with
    | .ok s' => (s', ())
    | _ => (s, ())
  | .finish => (finishIteration s, ())
  | .resetMeasurements => (resetMeasurements s, ())
  | .resetStatistics => (resetStatistics s, ())
  | .getAndResetStatistics a b =>
    match getAndResetStatistics s a b with
    | .ok r => (r.2, ())
    | _ => (s, ())
  | .getMeasurements => ((getMeasurements s).2.2, ())

/-- State after a history of calls. -/
def after [Field K] (N B : Nat) (ops : List (Op K)) : State K N B := final step init ops

end Visr.Profiler
