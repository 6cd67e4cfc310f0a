import Verif.ReverbRenderer.Model

/-!
# The ready-made signal flows

Models the constructors of the composites in `src/libsignalflows`: `BaselineRenderer`, `BunchRenderer`, `DelayVector`,
`GainMatrix` and `TimeFrequencyFeedthrough`, and of the core renderer with the reverberation renderer inside. The result
is a component tree of `Verif/Flow`.

Not modelled: exceptions in the constructors of the components other than those named below (for instance sockets that
cannot be opened).
-/

namespace Visr.SignalFlows
open Visr Visr.Flow Visr.Wiring
open Visr.CoreRenderer (PConfig)
open Visr.ReverbRenderer (aport pport)

/-- The core renderer with a reverberation renderer (`core_renderer.cpp:248-258`): the component tree of `CoreRenderer`,
where the ports `reverbIn`, `reverbOut` and `reverbObjects` belong to the contained `ReverbObjectRenderer`. It gets the
number of inputs and the loudspeaker array of the core renderer. -/
def coreWithReverb (c : CoreRenderer.Config) (objects reflections : Nat) (fileFilters : Option Nat) : Outcome Comp :=
  match CoreRenderer.construct c with
  | .ok (.composite own param _ conns pconns) => do
    let reverb ← ReverbRenderer.construct ⟨c.nIn, c.nL, objects, reflections, fileFilters⟩
    .ok (.composite own param
      (((c.components.filter fun l => l ≠ [.reverbIn, .reverbOut]).map fun l => Comp.atom (l.map c.port) []) ++
        ((c.params.filter fun l => l ≠ [.reverbObjects]).map fun l => Comp.atom [] (l.map c.pport)) ++ [reverb])
      conns pconns)
  | o => o

/-- Configuration of the reverberation: none, or `numReverbObjects`, `discreteReflectionsPerObject` and the number of
filters in the decorrelation filter file. -/
abbrev Reverb := Option (Nat × Nat × Option Nat)

/-- The core renderer as constructed by the renderers below. -/
def core (c : CoreRenderer.Config) (reverb : Reverb) : Outcome Comp :=
  match reverb with
  | none => CoreRenderer.construct { c with reverb := false }
  | some r => coreWithReverb { c with reverb := true } r.1 r.2.1 r.2.2

/-- The core renderer as a contained component. Port names: `core_renderer.cpp:80-82,129`. -/
def corePart (c : CoreRenderer.Config) (t : Comp) : Part :=
  { name := "CoreRenderer",
    audio := [("audioIn", c.port .audioIn), ("audioOut", c.port .audioOut)],
    param := ("objectDataInput", c.pport .objectData) ::
      (if c.tracking then [("trackingPositionInput", c.pport .trackingPosition)] else []),
    body := match t with
      | .atom _ _ => none
      | .composite _ _ kids conns pconns => some (kids, conns, pconns) }

/-- `rcl::UdpReceiver` (`udp_receiver.cpp:85`, `udp_receiver.hpp:72`): message queue (protocol 2) of strings (type 8). -/
def receiver (name : String) (id : Nat) : Part :=
  { name := name, audio := [], param := [("messageOutput", pport id false 2 8 .empty)] }

/-- `rcl::SceneDecoder` (`scene_decoder.cpp:21-22`). -/
def sceneDecoder : Part :=
  { name := "SceneDecoder", audio := [],
    param := [("datagramInput", pport 101 true 2 8 .empty), ("objectVectorOutput", pport 102 false 0 0 .empty)] }

/-- `rcl::PositionDecoder` (`position_decoder.cpp:29-30`). -/
def positionDecoder : Part :=
  { name := "TrackingPositionDecoder", audio := [],
    param := [("messageInput", pport 104 true 2 8 .empty), ("positionOutput", pport 105 false 0 1 .empty)] }

/-- Ports and components of `BaselineRenderer` (`baseline_renderer.cpp:46-53,61-66`) around a core renderer. -/
def baselineSite (c : CoreRenderer.Config) (t : Comp) : Site :=
  { audio := [("input", aport 100 true c.nIn), ("output", aport 101 false c.nOut)], param := [],
    parts := [receiver "SceneReceiver" 100, sceneDecoder, corePart c t] ++
      (if c.tracking then [receiver "TrackingReceiver" 103, positionDecoder] else []) }

/-- Connections of `BaselineRenderer` (`baseline_renderer.cpp:56-66`). -/
def baselineCalls (c : CoreRenderer.Config) : List Stmt :=
  [.audio "" "input" "CoreRenderer" "audioIn", .audio "CoreRenderer" "audioOut" "" "output",
   .param "SceneReceiver" "messageOutput" "SceneDecoder" "datagramInput",
   .param "SceneDecoder" "objectVectorOutput" "CoreRenderer" "objectDataInput"] ++
  (if c.tracking then [.param "TrackingPositionDecoder" "positionOutput" "CoreRenderer" "trackingPositionInput"] else [])

/-- `BaselineRenderer::BaselineRenderer` (`baseline_renderer.cpp:32-68`). -/
def baseline (c : CoreRenderer.Config) (reverb : Reverb) : Outcome Comp := do
  let t ← core c reverb
  (baselineSite c t).build (baselineCalls c)

/-- Ports and components of `BunchRenderer` (`bunch_renderer.cpp:31-42`). -/
def bunchSite (c : CoreRenderer.Config) (t : Comp) : Site :=
  { audio := [("input", aport 100 true c.nIn), ("output", aport 101 false c.nOut)], param := [],
    parts := [receiver "SceneReceiver" 100, sceneDecoder, corePart c t] }

/-- Connections of `BunchRenderer` (`bunch_renderer.cpp:46-50`). The channels of `output` are those of the inputs. -/
def bunchCalls (c : CoreRenderer.Config) : List Stmt :=
  [.param "SceneReceiver" "messageOutput" "SceneDecoder" "datagramInput",
   .param "SceneDecoder" "objectVectorOutput" "CoreRenderer" "objectDataInput",
   .audioNamed "" "input" (List.range c.nIn) "CoreRenderer" "audioIn" (List.range c.nIn),
   .audioNamed "CoreRenderer" "audioOut" (List.range c.nOut) "" "output" (List.range c.nIn)]

/-- `BunchRenderer::BunchRenderer` (`bunch_renderer.cpp:20-51`): no object equalisation, no frequency-dependent
panning. -/
def bunch (c : CoreRenderer.Config) (reverb : Reverb) : Outcome Comp := do
  let c := { c with sections := 0, freqDep := false }
  let t ← core c reverb
  (bunchSite c t).build (bunchCalls c)

/-- Ports and components of `signalflows::DelayVector` (`delay_vector.cpp:19-33`, `librcl/delay_vector.cpp:76-88`). -/
def delaySite (n : Nat) : Site :=
  { audio := [("input", aport 0 true n), ("output", aport 1 false n)],
    param := [("globalGainInput", pport 0 true 0 2 (.vector n)), ("globalDelayInput", pport 1 true 0 2 (.vector n))],
    parts := [{ name := "DelayVector", audio := [("in", aport 2 true n), ("out", aport 3 false n)],
                param := [("gainInput", pport 2 true 0 2 (.vector n)), ("delayInput", pport 3 true 0 2 (.vector n))] }] }

/-- Connections of `signalflows::DelayVector` (`delay_vector.cpp:35-39`). -/
def delayCalls : List Stmt :=
  [.audio "" "input" "DelayVector" "in", .audio "DelayVector" "out" "" "output",
   .param "" "globalGainInput" "DelayVector" "gainInput", .param "" "globalDelayInput" "DelayVector" "delayInput"]

/-- `signalflows::DelayVector::DelayVector` (`delay_vector.cpp:13-40`). -/
def delayFlow (n : Nat) : Outcome Comp := (delaySite n).build delayCalls

/-- `signalflows::DelayVector` as a contained component: whatever name is given, it is registered with the empty name
(`delay_vector.cpp:19`). -/
def delayFlowPart (_name : String) (n inId outId gainId delayId : Nat) : Part :=
  { name := "", audio := [("input", aport inId true n), ("output", aport outId false n)],
    param := [("globalGainInput", pport gainId true 0 2 (.vector n)),
      ("globalDelayInput", pport delayId true 0 2 (.vector n))] }

/-- Ports and components of `signalflows::GainMatrix` (`gain_matrix.cpp:13-32`, `librcl/gain_matrix.cpp:20-21,53-62`). The
initial gain matrix has the right dimensions. -/
def gainSite (nIn nOut : Nat) : Site :=
  { audio := [("input", aport 0 true nIn), ("output", aport 1 false nOut)], param := [],
    parts := [{ name := "GainMatrix", audio := [("in", aport 2 true nIn), ("out", aport 3 false nOut)],
                param := [("gainInput", pport 0 true 1 3 (.matrix nOut nIn))] }] }

/-- Connections of `signalflows::GainMatrix` (`gain_matrix.cpp:34-37`). -/
def gainCalls (nIn nOut : Nat) : List Stmt :=
  [.audioNamed "" "input" (List.range nIn) "GainMatrix" "input" (List.range nIn),
   .audioNamed "GainMatrix" "output" (List.range nOut) "" "output" (List.range nOut)]

/-- `signalflows::GainMatrix::GainMatrix` (`gain_matrix.cpp:13-59`). -/
def gainFlow (nIn nOut : Nat) : Outcome Comp := (gainSite nIn nOut).build (gainCalls nIn nOut)

/-- Ports and components of `TimeFrequencyFeedthrough` (`time_frequency_feedthrough.cpp:10-27`). Both transforms have
`(dftSize + 2) / 2` bins and `period / hopSize` frames (`time_frequency_transform.cpp:99-116`,
`time_frequency_inverse_transform.cpp:57-73`); type 9, shared data. -/
def feedthroughSite (n dftSize hopSize period : Nat) : Site :=
  { audio := [("input", aport 0 true n), ("output", aport 1 false n)], param := [],
    parts := [
      { name := "ForwardTransform", audio := [("in", aport 2 true n)],
        param := [("out", ⟨0, false, 1, 9, timeFrequencyCode ((dftSize + 2) / 2) n (period / hopSize)⟩)] },
      { name := "InverseTransform", audio := [("out", aport 3 false n)],
        param := [("in", ⟨1, true, 1, 9, timeFrequencyCode ((dftSize + 2) / 2) n (period / hopSize)⟩)] }] }

/-- Connections of `TimeFrequencyFeedthrough` (`time_frequency_feedthrough.cpp:29-32`). -/
def feedthroughCalls (n : Nat) : List Stmt :=
  [.audioNamed "this" "input" (List.range n) "ForwardTransform" "in" (List.range n),
   .audioNamed "InverseTransform" "out" (List.range n) "this" "output" (List.range n),
   .param "ForwardTransform" "out" "InverseTransform" "in"]

/-- `TimeFrequencyFeedthrough::TimeFrequencyFeedthrough` (`time_frequency_feedthrough.cpp:10-37`). The period is divided
by the hop size before that is checked (`time_frequency_transform.cpp:103`); the size of the input buffer requires that
the hop size divides the period (49-62). Other conditions on the sizes are the subject of `TimeFreq`. -/
def feedthrough (n dftSize hopSize period : Nat) : Outcome Comp :=
  if hopSize = 0 then .ub
  else if period % hopSize ≠ 0 then .throw .logicError
  else (feedthroughSite n dftSize hopSize period).build (feedthroughCalls n)

end Visr.SignalFlows
