import Verif.Conversion.Model

/-!
# Signal flows in Matlab and Max/MSP

`/repo/src/libmexsupport/mex_wrapper.cpp`, `/repo/src/maxmspexternals/libmaxsupport/signal_flow_wrapper.cpp` and the `perform`
functions of the Max/MSP externals.

Conventions and simplifications: the sample type of the host (`float` or `double`), that of the renderer and their conversions
are arbitrary (`toSample`, `fromSample`).  The rows of the intermediate buffers are separate lists, and they are zero before
the input is copied into them (all of their elements are overwritten).  The construction of `AudioSignalFlow` is not part of
the model; failed allocations are not modelled.
-/

namespace Visr.Hosts

/-- `AudioSignalFlow`: numbers of channels, length of a period, and `process()` (`/repo/src/librrl/audio_signal_flow.cpp` lines
136-179), which consumes a period of every capture channel and yields the new state, the samples of the playback channels
(channel, time) and the returned status. -/
structure Flow (σ : Type u) (α : Type v) where
  captures : Nat
  playbacks : Nat
  period : Nat
  proc : σ → List (List α) → Outcome (σ × (Nat → Nat → α) × Bool)

/-- What `AudioSignalFlow::process` returns: `audio_signal_flow.cpp` line 178. -/
def returnedStatus : Bool := true

/-- The flow as it is, given what it computes. -/
def audioSignalFlow (captures playbacks period : Nat) (compute : σ → List (List α) → Outcome (σ × (Nat → Nat → α))) :
    Flow σ α :=
  ⟨captures, playbacks, period, fun s x => do
    let (s', y) ← compute s x
    .ok (s', y, returnedStatus)⟩

/-- A period of a channel. -/
def row (F : Flow σ α) (y : Nat → α) : List α := (List.range F.period).map y

/-! ### Matlab -/

/-- The class of a matrix. -/
inductive MxClass where
  | single
  | double
  | other
  deriving DecidableEq

/-- A Matlab matrix; the elements are stored column after column. -/
structure MxArray (β : Type u) where
  cls : MxClass
  rows : Nat
  cols : Nat
  data : List β

/-- The constructor: `mex_wrapper.cpp` lines 21-89. The result is the output matrix, which `mxCreateNumericMatrix` fills with
zeros. -/
def create [Zero β] (F : Flow σ α) (input : MxArray β) : Outcome (MxArray β) :=
  if input.cls ≠ .double ∧ input.cls ≠ .single then .throw .invalidArgument
  else if input.rows ≠ F.captures then .throw .logicError
  else if F.period = 0 then .ub -- modulo zero
  else if input.cols % F.period ≠ 0 then .throw .logicError
  else .ok ⟨input.cls, F.playbacks, input.cols, List.replicate (F.playbacks * input.cols) 0⟩

/-- `transferInputSamples`: `mex_wrapper.cpp` lines 166-179, for the listed channels. -/
def transferInput [Zero α] (F : Flow σ α) (toSample : β → α) (data : List β) (block : Nat) : List Nat → Outcome (List (List α))
  | [] => .ok []
  | ch :: chs => do
    let (_, buf) ← Conversion.convertInputStride 8 4 (fun v => .ok (toSample v)) data
      ⟨0, block * F.period * F.captures + ch⟩ (List.replicate F.period 0) ⟨0, 0⟩ F.period F.captures 0
    let rest ← transferInput F toSample data block chs
    .ok (buf :: rest)

/-- `transferOutputSamples`: `mex_wrapper.cpp` lines 181-194, for the listed channels. -/
def transferOutput (F : Flow σ α) (fromSample : α → β) (y : Nat → Nat → α) (block : Nat) : List Nat → List β → Outcome (List β)
  | [], out => .ok out
  | ch :: chs, out => do
    let (_, out) ← Conversion.convertOutputStride 4 8 (fun v => .ok (fromSample v)) (row F (y ch)) ⟨0, 0⟩ out
      ⟨0, block * F.period * F.playbacks + ch⟩ F.period F.playbacks 0
    transferOutput F fromSample y block chs out

/-- The loop of `process`: `mex_wrapper.cpp` lines 98-132, for `n` blocks from number `block`. `&mInputBufferPtrs[0]` and
`&mOutputBufferPtrs[0]` are not defined for empty vectors. -/
def blocks [Zero α] (F : Flow σ α) (toSample : β → α) (fromSample : α → β) (data : List β) :
    Nat → Nat → σ → List β → Outcome (σ × List β)
  | 0, _, s, out => .ok (s, out)
  | n + 1, block, s, out => do
    let bufs ← transferInput F toSample data block (List.range F.captures)
    if F.captures = 0 ∨ F.playbacks = 0 then .ub
    else do
      let (s', y, processResult) ← F.proc s bufs
      if processResult ≠ false then .throw .runtimeError
      else do
        let out' ← transferOutput F fromSample y block (List.range F.playbacks) out
        blocks F toSample fromSample data n (block + 1) s' out'

/-- Constructor and `process` (`mex_wrapper.cpp` lines 21-133), as a Matlab function calls them
(`/repo/src/mex/feedthrough/feedthrough.cpp`). -/
def runMex [Zero α] [Zero β] (F : Flow σ α) (toSample : β → α) (fromSample : α → β) (s : σ) (input : MxArray β) :
    Outcome (σ × MxArray β) := do
  let output ← create F input
  let (s', out) ← blocks F toSample fromSample input.data (input.cols / F.period) 0 s output.data
  .ok (s', { output with data := out })

/-! ### Max/MSP -/

/-- What a call does: it returns, having reported an error or not; an object that is not a `std::exception` leaves it; or the
behaviour is undefined. -/
inductive Result (σ : Type u) (γ : Type v) where
  | returned (reported : Bool) (s : σ) (outs : List (List γ))
  | escaped
  | undefined

/-- `SignalFlowWrapper::transferInputSamples`: `signal_flow_wrapper.cpp` lines 57-71, for the listed channels. -/
def maxTransferInput [Zero α] (F : Flow σ α) (toSample : β → α) (ins : List (List β)) : List Nat → Outcome (List (List α))
  | [] => .ok []
  | ch :: chs =>
    match ins[ch]? with
    | none => .ub
    | some src => do
      let (ret, buf) ← Conversion.convert 8 4 (fun v => .ok (toSample v)) src ⟨0, 0⟩ (List.replicate F.period 0) ⟨0, 0⟩ F.period 0
      if ret ≠ .noError then .throw .runtimeError
      else do
        let rest ← maxTransferInput F toSample ins chs
        .ok (buf :: rest)

/-- `SignalFlowWrapper::transferOutputSamples`: `signal_flow_wrapper.cpp` lines 73-87, for the listed channels. -/
def maxTransferOutput (F : Flow σ α) (fromSample : α → β) (y : Nat → Nat → α) : List Nat → List (List β) → Outcome (List (List β))
  | [], outs => .ok outs
  | ch :: chs, outs =>
    match outs[ch]? with
    | none => .ub
    | some dest => do
      let (ret, buf) ← Conversion.convert 4 8 (fun v => .ok (fromSample v)) (row F (y ch)) ⟨0, 0⟩ dest ⟨0, 0⟩ F.period 0
      if ret ≠ .noError then .throw .runtimeError
      else maxTransferOutput F fromSample y chs (outs.set ch buf)

/-- `SignalFlowWrapper::processBlock`: `signal_flow_wrapper.cpp` lines 39-55. The status is not used. A `std::exception` is
replaced by a `std::string` (line 53), which no handler for `std::exception` catches. -/
def processBlock [Zero α] (F : Flow σ α) (toSample : β → α) (fromSample : α → β) (s : σ) (ins outs : List (List β)) : Result σ β :=
  match (do
    let bufs ← maxTransferInput F toSample ins (List.range F.captures)
    let (s', y, _) ← F.proc s bufs
    let outs' ← maxTransferOutput F fromSample y (List.range F.playbacks) outs
    .ok (s', outs') : Outcome (σ × List (List β))) with
  | .ok (s', outs') => .returned false s' outs'
  | .throw _ => .escaped
  | .ub => .undefined

/-- The externals. -/
inductive External where
  | gainMatrix
  | renderer
  | convolver
  deriving DecidableEq

/-- The `perform` functions: `/repo/src/maxmspexternals/gain_matrix/gain_matrix.cpp` lines 190-215,
`visr_renderer/visr_renderer.cpp` lines 233-258 and `matrix_convolver/matrix_convolver.cpp` lines 189-220. `context` says whether
`mContext` was created, `wrapper` is the state of the flow if `mFlowWrapper` was created. The numbers of channels of the flow
are the configured ones. Wrong numbers of channels or samples are reported, and the block is processed nevertheless. -/
def perform [Zero α] (e : External) (F : Flow σ α) (toSample : β → α) (fromSample : α → β) (s : σ) (context wrapper : Bool)
    (sampleframes : Nat) (ins outs : List (List β)) : Result σ β :=
  let mismatch : Bool := ins.length ≠ F.captures ∨ outs.length ≠ F.playbacks ∨ sampleframes ≠ F.period
  if e ≠ .gainMatrix ∧ context = false then .undefined -- `mContext->period()`
  else if wrapper = false then
    if e = .convolver then .returned true s outs else .undefined -- `mFlowWrapper->processBlock`
  else
    match processBlock F toSample fromSample s ins outs with
    | .returned r s' outs' => .returned (r || mismatch) s' outs'
    | .escaped => .escaped
    | .undefined => .undefined

/-- `DelayVector::perform`: `/repo/src/maxmspexternals/delay_vector/delay_vector.cpp` lines 158-179. The call of `processBlock` is
commented out. -/
def performDelayVector (channels period : Nat) (s : σ) (sampleframes : Nat) (ins outs : List (List β)) : Result σ β :=
  .returned (ins.length ≠ channels ∨ sampleframes ≠ period) s outs

end Visr.Hosts
