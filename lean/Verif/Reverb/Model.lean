import Verif.Allocator.Model
import Verif.RoutingParameter.Model
import Verif.Biquad.Model
import Verif.Vbap.Model
import Verif.Efl.Aligned

/-!
# Reverberation parameters of a scene

Models `/repo/src/libreverbobject/reverb_parameter_calculator.cpp` and the strided vector functions it uses
(`/repo/src/libefl/reference/vector_functions_impl.hpp:337-361`), over the real numbers.
-/

namespace Visr.Reverb

open Visr Visr.Rotation Classical

/-- `PointSourceWithReverb::LateReverb` (`point_source_with_reverb.hpp:135-275`), with
`cNumberOfSubBands = 9`. -/
@[ext] structure Late where
  onset : ℝ
  levels : Fin 9 → ℝ
  decays : Fin 9 → ℝ
  attacks : Fin 9 → ℝ

/-- `cDefaultLateReverbParameter` (`reverb_parameter_calculator.cpp:57-58`). -/
def Late.silent : Late := ⟨0, fun _ => 0, fun _ => 0, fun _ => 0⟩

/-- `maxDiff` (`reverb_parameter_calculator.cpp:33-40`): `std::inner_product` with maximum and absolute difference. -/
noncomputable def maxDiff (l r : Fin 9 → ℝ) : ℝ := (List.finRange 9).foldl (fun (acc : ℝ) i => max acc |l i - r i|) 0

/-- `equal` (`reverb_parameter_calculator.cpp:45-53`). -/
noncomputable def equal (limit : ℝ) (l r : Late) : Bool :=
  decide (|l.onset - r.onset| ≤ limit) && decide (maxDiff l.levels r.levels ≤ limit) &&
    decide (maxDiff l.decays r.decays ≤ limit) && decide (maxDiff l.attacks r.attacks ≤ limit)

/-- `PointSourceWithReverb::DiscreteReflection` (`point_source_with_reverb.hpp:48-133`), always with
`cNumDiscreteReflectionBiquads = 10` filter sections. -/
structure Reflection where
  pos : Vec ℝ
  delay : ℝ
  level : ℝ
  filters : Fin 10 → Biquad.Coef ℝ

/-- The object data used here. `reverb` tells whether the object is a `PointSourceWithReverb`; `reflections` and `late`
are meaningful only then. -/
structure Obj where
  id : Nat
  channels : List Nat
  reverb : Bool
  reflections : List Reflection
  late : Late

/-- The settings after `setup()` (`reverb_parameter_calculator.cpp:88-141`): comparison limit
`std::numeric_limits<float>::epsilon()` (73), objects, reflections per object, loudspeakers, alignment of the panning
matrix, panner and its machine epsilon. -/
structure Cfg where
  eps : ℝ
  limit : ℝ
  n : Nat
  refl : Nat
  lsp : Nat
  align : Nat
  vbap : Vbap.Vbap

/-- The rows of the panning matrix are padded (`basic_matrix.hpp`, C18). -/
def Cfg.stride (cfg : Cfg) : Nat := Efl.nextAlignedSize (cfg.n * cfg.refl) cfg.align

/-- One buffer of every double-buffered output (`reverb_parameter_calculator.hpp:151-157`). -/
structure Params where
  routing : List RoutingParameter.Entry
  gains : Nat → ℝ
  delays : Nat → ℝ
  filters : Nat → Fin 10 → Biquad.Coef ℝ
  lateGains : Nat → ℝ
  lateDelays : Nat → ℝ

/-- The state of the calculator and its output ports: channel allocator, last late reverb parameters per channel, the
buffers seen by the receivers (`shown`) and written by the calculator (`work`), the shared panning matrix (row-wise), and all messages with late reverb parameters sent
so far, oldest first (a receiver takes them from the front, C03). -/
structure State where
  alloc : Allocator.State
  prev : Nat → Late
  shown : Params
  work : Params
  pan : Nat → ℝ
  sent : List (Nat × Late)

/-- Parameters as constructed by the ports: empty routing, zeros, flat filters. -/
noncomputable def Params.initial : Params := ⟨[], fun _ => 0, fun _ => 0, fun _ _ => Biquad.Coef.flat, fun _ => 0, fun _ => 0⟩

/-- The state after `setup()` (`reverb_parameter_calculator.cpp:106-140`); the onset delay of the stored parameters is -1.
The constructor of the panner and the check of the number of sections (101-104) are those of `create`. -/
noncomputable def State.initial (cfg : Cfg) : State :=
  ⟨Allocator.State.init cfg.n, fun _ => { Late.silent with onset := -1 }, Params.initial, Params.initial, fun _ => 0, []⟩

/-- `setup()` (`reverb_parameter_calculator.cpp:88-141`): the panner is made for a listener at the origin
(`VBAP.h:44-48`). -/
noncomputable def setup (eps limit : ℝ) (positions : List (Vec ℝ)) (regular : Nat) (triplets : List (Nat × Nat × Nat))
    (is2D : Bool) (rerouting : Nat → Nat → ℝ) (n refl sections align : Nat) : Outcome Cfg :=
  if sections ≠ 10 then .throw .invalidArgument
  else do
    let v ← Vbap.Vbap.create eps positions regular triplets is2D rerouting ⟨0, 0, 0⟩
    .ok ⟨eps, limit, n, refl, regular, align, v⟩

/-- `vectorCopyStrided` (`vector_functions_impl.hpp:337-350`) with alignment 0 (no check): `n` elements from `sp` and to
`dp` on. -/
def copyStrided (src : Nat → ℝ) (srcStride dstStride : Nat) : Nat → Nat → Nat → (Nat → ℝ) → Nat → ℝ
  | 0, _, _, dst => dst
  | n + 1, sp, dp, dst =>
    copyStrided src srcStride dstStride n (sp + srcStride) (dp + dstStride) (Function.update dst dp (src sp))

/-- `vectorFillStrided` (`vector_functions_impl.hpp:352-361`). -/
def fillStrided (val : ℝ) (dstStride : Nat) : Nat → Nat → (Nat → ℝ) → Nat → ℝ
  | 0, _, dst => dst
  | n + 1, dp, dst => fillStrided val dstStride n (dp + dstStride) (Function.update dst dp val)

/-- The loop over the loudspeakers for an unused reflection (`reverb_parameter_calculator.cpp:264-267`); `n` loudspeakers
left, the next is `l`. -/
def clearColumn (stride idx : Nat) : Nat → Nat → (Nat → ℝ) → Nat → ℝ
  | 0, _, pan => pan
  | n + 1, l, pan => clearColumn stride idx n (l + 1) (Function.update pan (l * stride + idx) 0)

/-- Assignments to filters, gain and delay number `idx` (`reverb_parameter_calculator.cpp:239-246,256-261,316-321`).
The ten assignments of the filter sections are made in one go: the section indices are below ten. -/
def Params.setReflection (p : Params) (idx : Nat) (f : Fin 10 → Biquad.Coef ℝ) (gain delay : ℝ) : Params :=
  { p with gains := Function.update p.gains idx gain, delays := Function.update p.delays idx delay,
           filters := Function.update p.filters idx f }

/-- The loop over the reflections of an object (`reverb_parameter_calculator.cpp:224-247`) from reflection `src` on. An
access beyond the vectors, which have `n * refl` elements, is undefined. -/
noncomputable def reflectionLoop (cfg : Cfg) (start : Nat) : List Reflection → Nat → State → State × Outcome Unit
  | [], _, s => (s, .ok ())
  | r :: rs, src, s =>
    match Vbap.gains cfg.eps cfg.vbap r.pos false with
    | .throw e => (s, .throw e)
    | .ub => (s, .ub)
    | .ok g =>
      if start + src < cfg.n * cfg.refl then
        reflectionLoop cfg start rs (src + 1)
          { s with
            pan := copyStrided (fun i => g.getD i 0) 1 cfg.stride cfg.lsp 0 (start + src) s.pan
            work := s.work.setReflection (start + src) r.filters r.level r.delay }
      else (s, .ub)

/-- The loop over the unused reflections of an object (`reverb_parameter_calculator.cpp:251-268`), `m` left. -/
noncomputable def unusedLoop (cfg : Cfg) (start : Nat) : Nat → Nat → State → State × Outcome Unit
  | 0, _, s => (s, .ok ())
  | m + 1, src, s =>
    if start + src < cfg.n * cfg.refl then
      unusedLoop cfg start m (src + 1)
        { s with
          work := s.work.setReflection (start + src) (fun _ => Biquad.Coef.flat) 0 0
          pan := clearColumn cfg.stride (start + src) cfg.lsp 0 s.pan }
    else (s, .ub)

/-- The late part (`reverb_parameter_calculator.cpp:277-284,323-331`): gain, delay, and a message if the parameters
have changed. -/
noncomputable def setLate (cfg : Cfg) (ch : Nat) (gain : ℝ) (late : Late) (s : State) : State × Outcome Unit :=
  if ch < cfg.n then
    let s := { s with work := { s.work with lateDelays := Function.update s.work.lateDelays ch 0,
                                             lateGains := Function.update s.work.lateGains ch gain } }
    if equal cfg.limit (s.prev ch) late then (s, .ok ())
    else ({ s with prev := Function.update s.prev ch late, sent := s.sent ++ [(ch, late)] }, .ok ())
  else (s, .ub)

/-- `processSingleObject()` (`reverb_parameter_calculator.cpp:202-285`). -/
noncomputable def processSingleObject (cfg : Cfg) (o : Obj) (ch : Nat) (s : State) : State × Outcome Unit :=
  if o.reflections.length > cfg.refl then (s, .throw .invalidArgument)
  else
    match reflectionLoop cfg (ch * cfg.refl) o.reflections 0 s with
    | (s, .ok ()) =>
      match unusedLoop cfg (ch * cfg.refl) (cfg.refl - o.reflections.length) o.reflections.length s with
      | (s, .ok ()) => setLate cfg ch 1 o.late s
      | r => r
    | r => r

/-- The loop of `clearSingleObject()` (`reverb_parameter_calculator.cpp:302-321`), `m` reflections left. -/
noncomputable def clearLoop (cfg : Cfg) (start : Nat) : Nat → Nat → State → State × Outcome Unit
  | 0, _, s => (s, .ok ())
  | m + 1, src, s =>
    if start + src < cfg.n * cfg.refl then
      clearLoop cfg start m (src + 1)
        { s with
          pan := fillStrided 0 cfg.stride cfg.lsp (start + src) s.pan
          work := s.work.setReflection (start + src) (fun _ => Biquad.Coef.flat) 0 0 }
    else (s, .ub)

/-- `clearSingleObject()` (`reverb_parameter_calculator.cpp:287-332`). -/
noncomputable def clearSingleObject (cfg : Cfg) (ch : Nat) (s : State) : State × Outcome Unit :=
  match clearLoop cfg (ch * cfg.refl) cfg.refl 0 s with
  | (s, .ok ()) => setLate cfg ch 0 Late.silent s
  | r => r

/-- `ObjectVector::at()` (`object_vector.cpp`, C40). -/
def find (scene : List Obj) (id : Nat) : Option Obj := scene.find? fun o => o.id == id

/-- One channel of the loop in `process()` (`reverb_parameter_calculator.cpp:176-191`). An object that is not in the
scene or is not a reverb object makes `at()` or the `dynamic_cast` throw. `cInvalidChannelIndex` and `cInvalidObjectId`
are both `UINT_MAX`. -/
noncomputable def channelStep (cfg : Cfg) (scene : List Obj) (s : State) (ch : Nat) : State × Outcome Unit :=
  let id := Allocator.getObjectForChannel s.alloc ch
  if id = Allocator.cInvalidObjectId then
    clearSingleObject cfg ch { s with work := { s.work with routing := (RoutingParameter.removeOutput s.work.routing ch).1 } }
  else
    match find scene id with
    | none => (s, .throw .outOfRange)
    | some o =>
      if o.reverb then
        match o.channels with
        | [] => (s, .throw .invalidArgument)
        | c :: _ =>
          processSingleObject cfg o ch
            { s with work := { s.work with routing := RoutingParameter.addRouting s.work.routing ⟨c, ch⟩ } }
      else (s, .throw .badCast)

/-- The loop over the channels (`reverb_parameter_calculator.cpp:174`), `m` channels left. -/
noncomputable def channelLoop (cfg : Cfg) (scene : List Obj) : Nat → Nat → State → State × Outcome Unit
  | 0, _, s => (s, .ok ())
  | m + 1, ch, s =>
    match channelStep cfg scene s ch with
    | (s, .ok ()) => channelLoop cfg scene m (ch + 1) s
    | r => r

/-- The first loop of `process()` (`reverb_parameter_calculator.cpp:145-166`): the ids of the single-channel reverb
objects. -/
def foundIds : List Obj → List Nat
  | [] => []
  | o :: os => if o.reverb then if o.channels.length ≠ 1 then foundIds os else o.id :: foundIds os else foundIds os

/-- `swapBuffers()` of all double-buffered ports (`reverb_parameter_calculator.cpp:192-198`,
`double_buffering_protocol.cpp:52-60`); by default the new values are not copied, so that the next call of `process()`
works on those before. -/
def State.swap (s : State) : State := { s with shown := s.work, work := s.shown }

/-- `process()` (`reverb_parameter_calculator.cpp:147-199`). -/
noncomputable def process (cfg : Cfg) (s : State) (scene : List Obj) : State × Outcome Unit :=
  let ids := foundIds scene
  if ids.length > cfg.n then (s, .throw .runtimeError)
  else
    match Allocator.setObjects s.alloc ids with
    | (a, .ok ()) =>
      match channelLoop cfg scene cfg.n 0 { s with alloc := a } with
      | (s, .ok ()) => (s.swap, .ok ())
      | r => r
    | (a, r) => ({ s with alloc := a }, r)

end Visr.Reverb
