import Verif.Outcome
import Verif.Run
import Verif.Efl.Ramp

/-!
# Time-stamped panning gains

Models `src/libpanningdsp/panning_gain_matrix.cpp` and `src/libpanningdsp/panning_matrix_parameter.cpp`.

Simplifications: samples and gains are elements of an arbitrary field, so rounding is not modelled. Time stamps are
natural numbers below `2 ^ 64`; sums and differences of time stamps wrap around as those of `std::size_t`. The
assertions of the processing loop (`panning_gain_matrix.cpp:184-190`) are part of the model: a failed assertion is the
outcome `ub` (without assertions the unsigned length of the slope wraps around, or is zero and the loop does not end).
Failures of `efl` functions because of misaligned buffers are not modelled.
-/

namespace Visr.PanningDsp

variable {K : Type*} [Field K]

/-- `cTimeStampInfinity` (`types.hpp:29`), the largest value of `std::size_t` (`libvisr/time.hpp:55`). -/
def infinity : Nat := 2 ^ 64 - 1

/-- Sum of two `std::size_t` values. -/
def wadd (a b : Nat) : Nat := (a + b) % 2 ^ 64

/-- Difference of two `std::size_t` values. -/
def wsub (a b : Nat) : Nat := (a + 2 ^ 64 - b) % 2 ^ 64

/-- The entry of one object in a `PanningMatrixParameter` (`panning_matrix_parameter.hpp:131-137`): start time,
duration and one gain per loudspeaker. -/
structure Transition (K : Type*) where
  start : Nat
  duration : Nat
  gains : List K
  deriving DecidableEq

/-- The members of `PanningGainMatrix` that belong to one object (`panning_gain_matrix.hpp:218-241`): the current slope
and the only stored transition (`cNumPendingTransitions` is 1). -/
structure Obj (K : Type*) where
  prevTime : Nat
  targetTime : Nat
  prevGains : List K
  targetGains : List K
  pendStart : Nat
  pendDuration : Nat
  pendGains : List K
  deriving DecidableEq

/-- Initial values of the members of one object (`panning_gain_matrix.cpp:71-77`, `:88-89`); the stored transition is a
default-constructed parameter (`panning_matrix_parameter.cpp:87-94`). -/
def Obj.init (numLsp : Nat) (gains : List K) : Obj K :=
  ⟨0, infinity, gains, gains, infinity, infinity, List.replicate numLsp 0⟩

/-- `interpolationRatio` (`panning_gain_matrix.cpp:122-129`). -/
def interpolationRatio (currentTime previousTime targetTime : Nat) : K :=
  if targetTime = infinity then 0
  else ((wsub currentTime previousTime : Nat) : K) / ((wsub targetTime previousTime : Nat) : K)

/-- `gainIncRatio` (`panning_gain_matrix.cpp:131-137`). -/
def gainIncRatio (previousTime targetTime : Nat) : K :=
  if targetTime = infinity then 0 else 1 / ((wsub targetTime previousTime : Nat) : K)

/-- The loops of `panning_gain_matrix.cpp:317-321` and `:341-345`. -/
def blend (alpha : K) (prev target : List K) : List K :=
  List.zipWith (fun a b => alpha * b + (1 - alpha) * a) prev target

/-- `updateTransition` (`panning_gain_matrix.cpp:282-353`). `status( StatusMessage::Error, ... )` throws
`std::runtime_error` (`libvisr/impl/component_implementation.cpp:73-90`), so the `return` behind it is not reached. -/
def updateTransition (o : Obj K) (currentTime : Nat) (t : Transition K) : Outcome (Obj K) :=
  if t.start = infinity then .ok o
  else if t.start < currentTime then .throw .runtimeError
  else if t.start = currentTime then
    let o := { o with prevTime := currentTime }
    let o :=
      if t.duration = 0 then { o with prevGains := t.gains, targetGains := t.gains, targetTime := infinity }
      else
        let alpha := interpolationRatio currentTime o.prevTime o.targetTime
        { o with
          prevGains := blend alpha o.prevGains o.targetGains
          targetGains := t.gains
          targetTime := wadd currentTime t.duration }
    .ok { o with pendStart := infinity, pendDuration := infinity, pendGains := o.targetGains }
  else
    let o :=
      if t.start < o.targetTime then
        let alpha := interpolationRatio currentTime o.prevTime o.targetTime
        { o with targetGains := blend alpha o.prevGains o.targetGains, targetTime := t.start }
      else o
    .ok { o with pendStart := t.start, pendDuration := t.duration, pendGains := t.gains }

/-- `updateTransitions` (`panning_gain_matrix.cpp:268-280`): the objects after the call and how the call ended. The
objects before the one that throws are updated already. A message with fewer entries than the component has objects
makes the loop read behind the end of the arrays. -/
def updateTransitions (currentTime : Nat) : List (Obj K) → List (Transition K) → List (Obj K) × Outcome Unit
  | [], _ => ([], .ok ())
  | o :: os, [] => (o :: os, .ub)
  | o :: os, t :: ts =>
    match updateTransition o currentTime t with
    | .ok o' => let r := updateTransitions currentTime os ts; (o' :: r.1, r.2)
    | .throw e => (o :: os, .throw e)
    | .ub => (o :: os, .ub)

/-- `mScalingRamp` (`panning_gain_matrix.cpp:38-47`, `:78-80`). -/
def scalingRamp (period : Nat) : List K := (List.range period).map (fun idx : Nat => 1 + (idx : K) * 1)

/-- `scaleSignal` (`panning_gain_matrix.cpp:355-368`): `vectorRampScaling` of `duration` samples from `startIdx`. -/
def scaleSignal (ramp input output : List K) (startIdx duration : Nat) (gainStart gainInc : K) (accumulate : Bool) :
    List K :=
  output.take startIdx ++
    Efl.vectorRampScaling (input.drop startIdx) ramp (output.drop startIdx) gainStart gainInc duration accumulate ++
    output.drop (startIdx + duration)

/-- `processAudioSingleSlope` (`panning_gain_matrix.cpp:235-256`): all loudspeaker signals. -/
def processAudioSingleSlope (ramp input : List K) (o : Obj K) (currentTime startIdx duration : Nat)
    (accumulate : Bool) (output : List (List K)) : List (List K) :=
  let startRatio : K := interpolationRatio currentTime o.prevTime o.targetTime
  let incRatio : K := gainIncRatio o.prevTime o.targetTime
  output.mapIdx (fun lspIdx ch =>
    let d := o.targetGains.getD lspIdx 0 - o.prevGains.getD lspIdx 0
    scaleSignal ramp input ch startIdx duration (o.prevGains.getD lspIdx 0 + startRatio * d) (incRatio * d) accumulate)

/-- The end of a slope (`panning_gain_matrix.cpp:196-230`). -/
def nextSlope (o : Obj K) (currentTime : Nat) : Obj K :=
  if currentTime = o.targetTime then
    let o := { o with prevTime := currentTime }
    if o.pendStart = currentTime then
      let o :=
        if o.pendDuration = 0 then { o with prevGains := o.pendGains, targetTime := infinity }
        else { o with prevGains := o.targetGains, targetTime := wadd currentTime o.pendDuration }
      { o with targetGains := o.pendGains, pendStart := infinity, pendDuration := infinity }
    else { o with targetTime := o.pendStart, prevGains := o.targetGains }
  else o

/-- The `while` loop of `processAudio` for one object (`panning_gain_matrix.cpp:182-231`). `fuel` bounds the number of
iterations; every iteration processes at least one sample, so that the number of remaining samples is sufficient. -/
def slopeLoop (ramp input : List K) (accumulate : Bool) (blockEndTime : Nat) :
    Nat → Nat → Nat → Obj K → List (List K) → Outcome (Obj K × List (List K))
  | fuel, currentTime, bufferOffset, o, output =>
    if currentTime < blockEndTime then
      match fuel with
      | 0 => .ub
      | fuel + 1 =>
        if o.prevTime < o.targetTime ∧ o.prevTime ≤ currentTime ∧ currentTime < o.targetTime ∧
            currentTime < o.pendStart then
          let duration := min o.targetTime blockEndTime - currentTime
          let output := processAudioSingleSlope ramp input o currentTime bufferOffset duration accumulate output
          slopeLoop ramp input accumulate blockEndTime fuel (currentTime + duration) (bufferOffset + duration)
            (nextSlope o (currentTime + duration)) output
        else .ub
    else .ok (o, output)

/-- The loop over the objects (`panning_gain_matrix.cpp:173-232`); all but the first object add to the outputs. -/
def objectLoop (ramp : List K) (clock period : Nat) :
    Bool → List (Obj K) → List (List K) → List (List K) → Outcome (List (Obj K) × List (List K))
  | _, [], _, output => .ok ([], output)
  | _, _ :: _, [], _ => .ub
  | accumulate, o :: os, input :: inputs, output =>
    match slopeLoop ramp input accumulate (wadd clock period) period clock 0 o output with
    | .ok (o', output') =>
      (objectLoop ramp clock period true os inputs output').map (fun r => (o' :: r.1, r.2))
    | .throw e => .throw e
    | .ub => .ub

/-- The component and its surroundings: the sample clock, the objects, and the message of the input port `gainInput`
that is marked as changed (`libpml/double_buffering_protocol.cpp:139-152`). -/
structure State (K : Type*) where
  numLsp : Nat
  period : Nat
  clock : Nat
  objs : List (Obj K)
  message : Option (List (Transition K))

/-- One call of the signal flow: a message that has been sent since the last call, the input signals, and the content
of the output buffers before the call. -/
structure Op (K : Type*) where
  message : Option (List (Transition K))
  input : List (List K)
  stale : List (List K)

/-- `processAudio` (`panning_gain_matrix.cpp:154-233`). -/
def processAudio (s : State K) (input stale : List (List K)) : Outcome (List (Obj K) × List (List K)) :=
  if s.objs.length = 0 then .ok (s.objs, List.replicate s.numLsp (List.replicate s.period 0))
  else objectLoop (scalingRamp s.period) s.clock s.period false s.objs input stale

/-- `processParameters` (`panning_gain_matrix.cpp:258-266`) apart from `resetChanged`. -/
def applyMessage (clock : Nat) (objs : List (Obj K)) : Option (List (Transition K)) → List (Obj K) × Outcome Unit
  | none => (objs, .ok ())
  | some m => updateTransitions clock objs m

/-- `process` (`panning_gain_matrix.cpp:107-111`, `:258-266`) within `AudioSignalFlow::executeComponents`
(`librrl/audio_signal_flow.cpp:221-261`), which advances the sample clock unless a component throws. A new message
replaces the previous one; `resetChanged` is called only if `updateTransitions` returns. -/
def step (s : State K) (op : Op K) : State K × Outcome (List (List K)) :=
  let message := op.message <|> s.message
  let r := applyMessage s.clock s.objs message
  match r.2 with
  | .ok _ =>
    let s := { s with objs := r.1, message := none }
    match processAudio s op.input op.stale with
    | .ok (objs, output) => ({ s with objs := objs, clock := wadd s.clock s.period }, .ok output)
    | .throw e => (s, .throw e)
    | .ub => (s, .ub)
  | .throw e => ({ s with objs := r.1, message := message }, .throw e)
  | .ub => ({ s with objs := r.1, message := message }, .ub)

/-- The constructors (`panning_gain_matrix.cpp:51-103`). The dimension check covers the initial gains but not the
initial transitions. -/
def create (period numObjs numLsp : Nat) (initialGains : List (List K))
    (initialTransitions : Option (List (Transition K))) : Outcome (State K) :=
  if initialGains.length = numObjs ∧ ∀ row ∈ initialGains, row.length = numLsp then
    let objs := initialGains.map (Obj.init numLsp)
    match initialTransitions with
    | none => .ok ⟨numLsp, period, 0, objs, none⟩
    | some m =>
      match updateTransitions 0 objs m with
      | (objs', .ok _) => .ok ⟨numLsp, period, 0, objs', none⟩
      | (_, .throw e) => .throw e
      | (_, .ub) => .ub
  else .throw .invalidArgument

/-! ## Parameter objects -/

/-- `PanningMatrixParameter` (`panning_matrix_parameter.hpp:30-140`): a gain matrix with its dimensions (rows are
objects) and the two arrays of times. -/
structure Param (K : Type*) where
  rows : Nat
  cols : Nat
  gains : List (List K)
  timeStamps : List Nat
  transitionTimes : List Nat
  deriving DecidableEq

/-- `BasicMatrix::resize` (`libefl/basic_matrix.hpp:89-107`): all elements are zero afterwards. -/
def zeroGains (rows cols : Nat) : List (List K) := List.replicate rows (List.replicate cols 0)

/-- Default constructor (`panning_matrix_parameter.cpp:87-94`). -/
def Param.default (numberOfObjects numberOfLoudspeakers : Nat) : Param K :=
  ⟨numberOfObjects, numberOfLoudspeakers, zeroGains numberOfObjects numberOfLoudspeakers,
    List.replicate numberOfObjects infinity, List.replicate numberOfObjects infinity⟩

/-- Constructor from a matrix and two arrays (`panning_matrix_parameter.cpp:96-104`). -/
def Param.ofArrays (rows cols : Nat) (gains : List (List K)) (timeStamps transitionTimes : List Nat) :
    Outcome (Param K) :=
  .ok ⟨rows, cols, gains, timeStamps, transitionTimes⟩

/-- Constructor from a matrix and two initialiser lists (`panning_matrix_parameter.cpp:106-114`), whose lengths are
checked (`:71-80`). -/
def Param.ofLists (rows cols : Nat) (gains : List (List K)) (timeStamps transitionTimes : List Nat) :
    Outcome (Param K) :=
  if timeStamps.length ≠ rows then .throw .invalidArgument
  else if transitionTimes.length ≠ rows then .throw .invalidArgument
  else Param.ofArrays rows cols gains timeStamps transitionTimes

/-- Copy constructor (`panning_matrix_parameter.cpp:140-146`). -/
def Param.copy (rhs : Param K) : Param K :=
  ⟨rhs.rows, rhs.cols, rhs.gains, rhs.timeStamps, rhs.transitionTimes⟩

/-- `BasicMatrix::copy` (`libefl/basic_matrix.hpp:145-169`) into the gains of `p`. -/
def Param.copyGains (p rhs : Param K) : Param K × Outcome Unit :=
  if p.rows ≠ rhs.rows ∨ p.cols ≠ rhs.cols then (p, .throw .invalidArgument)
  else ({ p with gains := rhs.gains }, .ok ())

/-- The function template `copy` for arrays (`panning_matrix_parameter.cpp:30-37`), which asserts equal sizes and
copies `src.size()` elements. -/
def copyArray (src dest : List Nat) : Outcome (List Nat) := if src.length = dest.length then .ok src else .ub

/-- Assignment to a different object (`panning_matrix_parameter.cpp:150-163`): the target and how the call ended. The
two arrays get as many elements as the source has objects (`AlignedArray::resize`); the matrix is resized to
`rhs.numberOfLoudspeakers()` rows and `rhs.numberOfObjects()` columns. -/
def Param.assign (p rhs : Param K) : Param K × Outcome Unit :=
  let p : Param K := { p with
    timeStamps := List.replicate rhs.rows 0
    transitionTimes := List.replicate rhs.rows 0
    rows := rhs.cols
    cols := rhs.rows
    gains := zeroGains rhs.cols rhs.rows }
  match copyArray rhs.timeStamps p.timeStamps with
  | .ok ts =>
    match copyArray rhs.transitionTimes p.transitionTimes with
    | .ok tt => ({ p with timeStamps := ts, transitionTimes := tt } : Param K).copyGains rhs
    | .throw e => ({ p with timeStamps := ts }, .throw e)
    | .ub => ({ p with timeStamps := ts }, .ub)
  | .throw e => (p, .throw e)
  | .ub => (p, .ub)

end Visr.PanningDsp
