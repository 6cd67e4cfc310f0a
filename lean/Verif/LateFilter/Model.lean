import Verif.Reverb.Model
import Mathlib.Analysis.SpecialFunctions.Exp
import Mathlib.Algebra.Order.Floor.Ring

/-!
# Model of the late reverberation filter calculator

`src/libreverbobject/late_reverb_filter_calculator.cpp`. Samples are real numbers, rounding is not modelled. The white noise of
`createWhiteNoiseSequence()` (242-251), which comes from a random device, is a parameter.
-/

namespace Visr.LateFilter
open Visr
open Visr.Reverb (Late)

/-- `filterBiquad` (`late_reverb_filter_calculator.cpp:36-57`): `i1` and `i2` are `inputBuffer[1]` and `inputBuffer[2]`, `s0`
and `s1` the state. -/
def filterBiquad (c : Biquad.Coef ℝ) : List ℝ → ℝ → ℝ → ℝ → ℝ → List ℝ
  | [], _, _, _, _ => []
  | x :: xs, i1, i2, s0, s1 =>
    let y := c.b0 * x + c.b1 * i2 + c.b2 * i1 - c.a1 * s1 - c.a2 * s0
    y :: filterBiquad c xs i2 x s1 y

/-- `cOctaveBandFilters` (`late_reverb_filter_calculator.cpp:74-83`). -/
noncomputable def octaveBands : List (Biquad.Coef ℝ) :=
  [⟨0.000016684780519, 0.000033369561037, 0.000016684780519, -1.994164939377186, 0.994231678499260⟩,
   ⟨0.005751740181735, 0, -0.005751740181735, -1.988230335335583, 0.988496519636531⟩,
   ⟨0.011437753858235, 0, -0.011437753858235, -1.976065915069578, 0.977124492283531⟩,
   ⟨0.022617292733236, 0, -0.022617292733236, -1.950580111730489, 0.954765414533529⟩,
   ⟨0.044237741487938, 0, -0.044237741487938, -1.895171159793622, 0.911524517024123⟩,
   ⟨0.084754185122791, 0, -0.084754185122791, -1.768119139985760, 0.830491629754419⟩,
   ⟨0.156456676130944, 0, -0.156456676130944, -1.461059895326733, 0.687086647738111⟩,
   ⟨0.272011461038663, 0, -0.272011461038663, -0.727988538961337, 0.455977077922675⟩,
   ⟨0.137825787997573, -0.275651575995145, 0.137825787997573, 0.551303151990290, 0.102606303980581⟩]

/-- The members of the calculator (`late_reverb_filter_calculator.hpp:128-150`): number of objects, filter length, filters per
call, sampling frequency, and the band noise, row `objectIdx * numberOfSubBands + bandIdx`. -/
structure Cfg where
  objects : Nat
  len : Nat
  maxUpdates : Nat
  fs : ℝ
  bandNoise : Nat → List ℝ

/-- The number of samples dropped at the beginning (`late_reverb_filter_calculator.cpp:106`). -/
def extra (align : Nat) : Nat := Efl.nextAlignedSize 20 align

/-- Row `row` of the band noise (`late_reverb_filter_calculator.cpp:118-138`): noise is filtered with the filter of the band and
the first samples are dropped. `raw` is the noise for the row. -/
noncomputable def noiseRow (align len : Nat) (raw : Nat → Nat → ℝ) (row : Nat) : List ℝ :=
  let noise := (List.range (len + extra align)).map (raw row)
  (filterBiquad (octaveBands.getD (row % 9) Biquad.Coef.flat) noise 0 0 0 0).drop (extra align)

/-- The constructor (`late_reverb_filter_calculator.cpp:86-140`); the conversion of a number beyond `size_t` is undefined. The
check of the number of bands is made after the allocation of the buffers. -/
noncomputable def create (n : Nat) (seconds fs : ℝ) (subBands maxUpdates align : Nat) (raw : Nat → Nat → ℝ) : Outcome Cfg :=
  let length := max (⌈seconds * fs⌉) 1
  if length ≥ 2 ^ 64 then .ub
  else if octaveBands.length ≠ subBands then .throw .invalidArgument
  else .ok ⟨n, length.toNat, if maxUpdates = 0 then n else maxUpdates, fs, noiseRow align length.toNat raw⟩

/-- `static_cast<std::size_t>( std::round( x ) )`; halves are rounded away from zero, and the conversion is undefined for
values that do not fit. -/
noncomputable def roundSamples (x : ℝ) : Outcome Nat :=
  let z := if 0 ≤ x then ⌊x + 1 / 2⌋ else -⌊-x + 1 / 2⌋
  if z < 0 ∨ z ≥ 2 ^ 64 then .ub else .ok z.toNat

/-- `for( n = from; n < from + m; ++n ) data[n] = f(n)`. -/
def fill (f : Nat → ℝ) : Nat → Nat → (Nat → ℝ) → Nat → ℝ
  | 0, _, data => data
  | m + 1, n, data => fill f m (n + 1) (Function.update data n (f n))

/-- `createEnvelope` (`late_reverb_filter_calculator.cpp:263-297`). Sums of `size_t` wrap. -/
noncomputable def createEnvelope (len : Nat) (onset gain attack decay fs : ℝ) (data : Nat → ℝ) : (Nat → ℝ) × Outcome Unit :=
  match roundSamples (onset * fs), roundSamples (attack * fs) with
  | .ok d, .ok a =>
    let stop := (d + a) % 2 ^ 64
    if d ≥ len ∨ stop ≥ len then (data, .throw .invalidArgument)
    else
      let data := fill (fun _ => 0) d 0 data
      let data := fill (fun n => gain * (((n - d : Nat) : ℝ) / (a : ℝ))) (stop - d) d data
      let data := fill (fun n => gain * Real.exp (decay / fs * (((n - a - d : Nat)) : ℝ))) (len - stop) stop data
      (data, .ok ())
  | _, _ => (data, .ub)

/-- The loop over the bands in `calculateImpulseResponse` (`late_reverb_filter_calculator.cpp:198-227`), `m` bands left; `env`
is the envelope buffer. The first band overwrites the filter, all others are added. An exception ends the loop
(237-240). -/
noncomputable def bandLoop (cfg : Cfg) (obj : Nat) (late : Late) : Nat → Nat → (Nat → ℝ) → (Nat → ℝ) → (Nat → ℝ) × Outcome Unit
  | 0, _, _, ir => (ir, .ok ())
  | m + 1, b, env, ir =>
    match createEnvelope cfg.len late.onset (late.levels (Fin.ofNat 9 b)) (late.attacks (Fin.ofNat 9 b))
      (late.decays (Fin.ofNat 9 b)) cfg.fs env with
    | (env, .ok ()) =>
      let noise := cfg.bandNoise (obj * 9 + b)
      bandLoop cfg obj late m (b + 1) env
        (fun k => if k < cfg.len then (if b = 0 then noise.getD k 0 * env k else ir k + noise.getD k 0 * env k) else ir k)
    | (_, r) => (ir, r)

/-- `calculateImpulseResponse` (`late_reverb_filter_calculator.cpp:178-241`) for a zero-initialised buffer of `mFilterLength`
samples: exceptions are reported and otherwise ignored. -/
noncomputable def calculate (cfg : Cfg) (obj : Nat) (late : Late) : Outcome (List ℝ) :=
  match bandLoop cfg obj late 9 0 (fun _ => 0) (fun _ => 0) with
  | (_, .ub) => .ub
  | (ir, _) => .ok ((List.range cfg.len).map ir)

/-- The queues: received messages (next first) and filters sent (oldest first). -/
structure State where
  queue : List (Nat × Late)
  sent : List (Nat × List ℝ)

/-- The loop in `process()` (`late_reverb_filter_calculator.cpp:146-176`), after `cnt` updates. -/
noncomputable def processLoop (cfg : Cfg) : Nat → List (Nat × Late) → List (Nat × List ℝ) → State × Outcome Unit
  | _, [], sent => (⟨[], sent⟩, .ok ())
  | cnt, m :: ms, sent =>
    if m.1 ≥ cfg.objects then (⟨m :: ms, sent⟩, .throw .outOfRange)
    else
      match calculate cfg m.1 m.2 with
      | .ok filter =>
        if cnt + 1 ≥ cfg.maxUpdates then (⟨ms, sent ++ [(m.1, filter)]⟩, .ok ())
        else processLoop cfg (cnt + 1) ms (sent ++ [(m.1, filter)])
      | .throw e => (⟨m :: ms, sent⟩, .throw e)
      | .ub => (⟨m :: ms, sent⟩, .ub)

/-- `process()`. -/
noncomputable def process (cfg : Cfg) (s : State) : State × Outcome Unit := processLoop cfg 0 s.queue s.sent

end Visr.LateFilter
