import Verif.Profiler.Model

/-!
# Specification of the profiler: what has been measured

The specification keeps the complete log of the iterations and says nothing about running means
or ring buffers.
-/

namespace Visr.Profiler

/-- Arithmetic mean of a list of numbers. -/
def average [Field K] (l : List K) : K := l.sum / (l.length : K)

/-- Sample variance of a list of numbers: squared distances from the mean, divided by one less
than their number. -/
def sampleVariance [Field K] (l : List K) : K :=
  (l.map (fun x => (x - average l) ^ 2)).sum / ((l.length : K) - 1)

/-- A log: the measured time of each component so far, the iterations since the last reset of the
statistics, and the iterations since the last reset of the measurements. -/
structure Log (K : Type u) (N : Nat) where
  now : Fin N → K
  forStatistics : List (Fin N → K)
  forMeasurements : List (Fin N → K)

/-- The log after a history of calls, most recent call first. -/
def logRev [Field K] (N : Nat) : List (Op K) → Log K N
  | [] => ⟨fun _ => 0, [], []⟩
  | .setTime idx t :: ops =>
    let l := logRev N ops
    { l with now := fun i => if i.val = idx then t else l.now i }
  | .finish :: ops =>
    let l := logRev N ops
    { l with
      forStatistics := l.forStatistics ++ [l.now]
      forMeasurements := l.forMeasurements ++ [l.now] }
  | .resetMeasurements :: ops => { logRev N ops with forMeasurements := [] }
  | .resetStatistics :: ops => { logRev N ops with forStatistics := [] }
  | .getAndResetStatistics a b :: ops =>
    if a = N ∧ b = N then { logRev N ops with forStatistics := [] } else logRev N ops
  | .getMeasurements :: ops => { logRev N ops with forMeasurements := [] }

/-- The log after a history of calls. -/
def log [Field K] (N : Nat) (ops : List (Op K)) : Log K N := logRev N ops.reverse

end Visr.Profiler
