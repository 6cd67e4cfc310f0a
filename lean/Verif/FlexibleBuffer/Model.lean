import Verif.CircularBuffer.Spec

/-!
# `rrl::FlexibleBufferWrapper`

Models `src/librrl/flexible_buffer_wrapper.{hpp,cpp}` on top of the circular buffer model.
-/

namespace Visr.FlexibleBuffer
open Visr Visr.CircularBuffer

/-- What the wrapper uses of the wrapped `AudioSignalFlow` (`src/librrl/audio_signal_flow.hpp`): its channel counts, its
period and `process()` (`audio_signal_flow.cpp:181-218`), which consumes one period of every capture channel and either
produces one period of every playback channel (`y ch i`) or throws. `σ` is the state of the flow. -/
structure Flow (σ : Type u) (α : Type v) where
  captureCh : Nat
  playbackCh : Nat
  period : Nat
  proc : σ → List (List α) → σ × Outcome (Nat → Nat → α)

/-- The data members, `flexible_buffer_wrapper.hpp:82-102`, plus the state of the flow. -/
structure Wrapper (σ : Type u) (α : Type v) where
  inBuf : CB α
  outBuf : CB α
  inLevel : Nat
  outLevel : Nat
  st : σ

/-- Constructor, `flexible_buffer_wrapper.cpp:19-30`. -/
def Wrapper.init [Zero α] (F : Flow σ α) (s : σ) : Outcome (Wrapper σ α) :=
  match (CB.init F.playbackCh (2 * F.period) 0 : CB α).write (fun _ _ => 0) F.playbackCh F.period with
  | .ok ob => .ok ⟨CB.init F.captureCh (2 * F.period) 0, ob, 0, F.period, s⟩
  | .throw e => .throw e
  | .ub => .ub

/-- `n` samples at delay `d` of all listed channels. -/
def readAll (b : CB α) (d n : Nat) : List Nat → Outcome (List (List α))
  | [] => .ok []
  | ch :: chs =>
    match b.read ch d n with
    | .ok s =>
      match readAll b d n chs with
      | .ok ss => .ok (s :: ss)
      | .throw e => .throw e
      | .ub => .ub
    | .throw e => .throw e
    | .ub => .ub

/-- The block in the middle of the loop body that runs the flow when a period is complete,
`flexible_buffer_wrapper.cpp:84-95` (same text in the strided overload, `:146-157`). If the flow throws, the input level
has already been incremented and stays so. -/
def runFlow (F : Flow σ α) (w : Wrapper σ α) : Wrapper σ α × Outcome Unit :=
  match readAll w.inBuf F.period F.period (List.range F.captureCh) with
  | .ok input =>
    let r := F.proc w.st input
    match r.2 with
    | .ok y =>
      match w.outBuf.directWrite y F.period with
      | .ok ob =>
        ({ w with outBuf := ob, inLevel := w.inLevel - F.period, outLevel := w.outLevel + F.period, st := r.1 }, .ok ())
      | .throw e => ({ w with st := r.1 }, .throw e)
      | .ub => (w, .ub)
    | .throw e => ({ w with st := r.1 }, .throw e)
    | .ub => (w, .ub)
  | .throw e => (w, .throw e)
  | .ub => (w, .ub)

/-- One pass of the `while` loop, `flexible_buffer_wrapper.cpp:66-107` / `:126-170`, without the final copy to the
caller's memory: returns the samples to be copied, per playback channel, and the chunk size. `cap ch i` is the `i`-th of
the capture samples not yet consumed. A violated assertion (line 66: the loop would never end) is `ub`. -/
def chunkStep (F : Flow σ α) (w : Wrapper σ α) (cap : Nat → Nat → α) (remaining : Nat) :
    Wrapper σ α × Outcome (Nat × List (List α)) :=
  if F.period ≤ w.inLevel then (w, .ub)
  else
    let chunk := min remaining (F.period - w.inLevel)
    let newLevel := w.inLevel + chunk
    match w.inBuf.directWrite cap chunk with
    | .ok ib =>
      let w1 := { w with inBuf := ib, inLevel := w.inLevel + chunk }
      let r := if newLevel = F.period then runFlow F w1 else (w1, .ok ())
      match r.2 with
      | .ok () =>
        match readAll r.1.outBuf r.1.outLevel chunk (List.range F.playbackCh) with
        | .ok outs =>
          -- `mOutputBufferLevel -= chunkFrames` on an unsigned number
          if r.1.outLevel < chunk then (r.1, .ub)
          else ({ r.1 with outLevel := r.1.outLevel - chunk }, .ok (chunk, outs))
        | .throw e => (r.1, .throw e)
        | .ub => (r.1, .ub)
      | .throw e => (r.1, .throw e)
      | .ub => (r.1, .ub)
    | .throw e => (w, .throw e)
    | .ub => (w, .ub)

/-- The `while` loop: returns the chunks copied to the caller's memory, each with `processedFrames` at that time. The fuel
is the number of remaining frames (every pass consumes at least one; running out of fuel is `ub`, never reached). The
caller's capture and playback memory are assumed not to overlap. -/
def loop (F : Flow σ α) (cap : Nat → Nat → α) :
    Nat → Wrapper σ α → Nat → Nat → Wrapper σ α × Outcome (List (Nat × List (List α)))
  | fuel, w, processed, remaining =>
    if remaining = 0 then (w, .ok [])
    else match fuel with
      | 0 => (w, .ub)
      | fuel + 1 =>
        let r := chunkStep F w (fun ch i => cap ch (processed + i)) remaining
        match r.2 with
        | .ok c =>
          let q := loop F cap fuel r.1 (processed + c.1) (remaining - c.1)
          match q.2 with
          | .ok cs => (q.1, .ok ((processed, c.2) :: cs))
          | .throw e => (q.1, .throw e)
          | .ub => (q.1, .ub)
        | .throw e => (r.1, .throw e)
        | .ub => (r.1, .ub)

/-- Copy of one chunk to `playbackSamples[ ch ] + processedFrames`, `flexible_buffer_wrapper.cpp:97-104`. -/
def storePtr (mem : Nat → Nat → α) (c : Nat × List (List α)) : Nat → Nat → α := fun ch i =>
  if i < c.1 then mem ch i
  else match c.2[ch]? with
    | some s => match s[i - c.1]? with
      | some v => v
      | none => mem ch i
    | none => mem ch i

/-- `process( captureSamples, playbackSamples, numFrames )`, `flexible_buffer_wrapper.cpp:55-109`: `cap ch i` is
`captureSamples[ch][i]`, `play` the playback memory before the call; returns the playback memory after the call. -/
def process (F : Flow σ α) (w : Wrapper σ α) (cap play : Nat → Nat → α) (numFrames : Nat) :
    Wrapper σ α × Outcome (Nat → Nat → α) :=
  let r := loop F cap numFrames w 0 numFrames
  match r.2 with
  | .ok cs => (r.1, .ok (cs.foldl storePtr play))
  | .throw e => (r.1, .throw e)
  | .ub => (r.1, .ub)

/-- Store one value. -/
def poke (mem : Nat → α) (a : Nat) (v : α) : Nat → α := fun x => if x = a then v else mem x

/-- `vectorCopyStrided` with destination stride `s` (`src/libefl/vector_functions_impl.hpp`). -/
def pokeStrided (s : Nat) (mem : Nat → α) (a : Nat) : List α → (Nat → α)
  | [] => mem
  | v :: vs => pokeStrided s (poke mem a v) (a + s) vs

/-- Copy of one chunk in the strided overload, `flexible_buffer_wrapper.cpp:159-167`: the first sample of channel `ch`
goes to `playbackSamples + processedFrames + ch * playbackChannelStride`. -/
def storeChannels (chStride smpStride : Nat) (mem : Nat → α) (a : Nat) : List (List α) → (Nat → α)
  | [] => mem
  | s :: ss => storeChannels chStride smpStride (pokeStrided smpStride mem a s) (a + chStride) ss

/-- `process( captureSamples, captureChannelStride, captureSampleStride, playbackSamples, playbackChannelStride,
playbackSampleStride, numFrames )`, `flexible_buffer_wrapper.cpp:111-172`, on flat memories. -/
def processStrided (F : Flow σ α) (w : Wrapper σ α) (cap : Nat → α) (capCh capSmp : Nat) (play : Nat → α)
    (playCh playSmp numFrames : Nat) : Wrapper σ α × Outcome (Nat → α) :=
  let r := loop F (fun ch i => cap (i * capSmp + ch * capCh)) numFrames w 0 numFrames
  match r.2 with
  | .ok cs => (r.1, .ok (cs.foldl (fun m c => storeChannels playCh playSmp m c.1 c.2) play))
  | .throw e => (r.1, .throw e)
  | .ub => (r.1, .ub)

end Visr.FlexibleBuffer
