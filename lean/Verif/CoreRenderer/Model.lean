import Verif.Flow.Model
import Mathlib.Data.Nat.Pairing

/-!
# The loudspeaker renderer

Models the constructor of `signalflows::CoreRenderer` (`src/libsignalflows/core_renderer.cpp:67-373`): the contained
components with the ports that it creates, and the connections between them, as a function of the configuration. The
result is a component tree of `Verif/Flow`, so the connection check of the runtime engine applies to it.

The contained components are represented by their ports only (the names are those used in `core_renderer.cpp`); their
processing is the subject of other areas. The reverberation renderer, itself a composite, is represented in the same way.
Errors while loading the built-in HOA decoder are not modelled.
-/

namespace Visr.CoreRenderer
open Visr Visr.Flow

/-- The arguments of the constructor (`core_renderer.cpp:67-78`) as far as the wiring depends on them. `lsp` and `subs`
are the output channel numbers (starting from one) of the regular loudspeakers and the subwoofers, of type `std::size_t`
(`LoudspeakerArray.h:70,337,345`); `getNumSubwoofers()` is the length of `subs`. `filters` is the number of rows of
`diffusionFilters`, `eqFilters` the number of filters of the output equalisation of the array (`none`: not present),
`delays` the number of entries of `getDelayAdjustment()`. `tracking` and `reverb` tell whether the respective
configuration string is nonempty. -/
structure Config where
  nIn : Nat
  nOut : Nat
  lsp : List UInt64
  subs : List UInt64
  filters : Nat
  eqFilters : Option Nat
  delays : Nat
  sections : Nat
  tracking : Bool
  reverb : Bool
  freqDep : Bool

/-- `getNumRegularSpeakers()`. -/
def Config.nL (c : Config) : Nat := c.lsp.length

/-- `getNumSubwoofers()`. -/
def Config.nS (c : Config) : Nat := c.subs.length

/-- `outputEqualisationPresent()`. -/
def Config.eq (c : Config) : Bool := c.eqFilters.isSome

/-- The audio ports of the renderer and of its components. -/
inductive Port where
  | audioIn | audioOut
  | objectGainIn | objectGainOut
  | objectEqIn | objectEqOut
  | adjustIn | adjustOut
  | vbapIn | vbapOut
  | vbipIn | vbipOut
  | diffuseIn | diffuseOut
  | decorrelatorIn | decorrelatorOut
  | mixIn0 | mixIn1 | mixIn2 | mixIn3 | mixOut
  | subwooferIn | subwooferOut
  | nullOut
  | listenerIn | listenerOut
  | outputEqIn | outputEqOut
  | filterbankIn | filterbankOut
  | reverbIn | reverbOut
  deriving DecidableEq

/-- The address of a port. -/
def Port.id : Port → Nat
  | audioIn => 0 | audioOut => 1
  | objectGainIn => 2 | objectGainOut => 3
  | objectEqIn => 4 | objectEqOut => 5
  | adjustIn => 6 | adjustOut => 7
  | vbapIn => 8 | vbapOut => 9
  | vbipIn => 10 | vbipOut => 11
  | diffuseIn => 12 | diffuseOut => 13
  | decorrelatorIn => 14 | decorrelatorOut => 15
  | mixIn0 => 16 | mixIn1 => 17 | mixIn2 => 18 | mixIn3 => 19 | mixOut => 20
  | subwooferIn => 21 | subwooferOut => 22
  | nullOut => 23
  | listenerIn => 24 | listenerOut => 25
  | outputEqIn => 26 | outputEqOut => 27
  | filterbankIn => 28 | filterbankOut => 29
  | reverbIn => 30 | reverbOut => 31

/-- Whether a port is an input of its component. -/
def Port.input : Port → Bool
  | audioIn | objectGainIn | objectEqIn | adjustIn | vbapIn | vbipIn | diffuseIn | decorrelatorIn | mixIn0 | mixIn1
  | mixIn2 | mixIn3 | subwooferIn | listenerIn | outputEqIn | filterbankIn | reverbIn => true
  | _ => false

/-- The width of a port: the arguments of the component constructors and `setup()` calls
(`core_renderer.cpp:80-107,118-121,147-149,153,159,171-173,212,236-240,246,250-252`, `add.cpp:22-40`,
`reverb_object_renderer.cpp:148-149`). -/
def Config.width (c : Config) : Port → Nat
  | .audioIn | .objectGainIn | .objectGainOut | .objectEqIn | .objectEqOut | .vbapIn | .vbipIn | .diffuseIn
  | .reverbIn => c.nIn
  | .audioOut => c.nOut
  | .vbapOut | .vbipOut | .diffuseOut | .decorrelatorIn | .decorrelatorOut | .mixIn0 | .mixIn1 | .mixIn2 | .mixIn3
  | .mixOut | .subwooferIn | .listenerIn | .listenerOut | .reverbOut => c.nL
  | .subwooferOut => c.nS
  | .adjustIn | .adjustOut | .outputEqIn | .outputEqOut => c.nL + c.nS
  | .filterbankIn | .filterbankOut => 2 * c.nIn
  | .nullOut => if c.nOut = c.nL + c.nS then 0 else 1

/-- The ports of the contained components, one list per component. The mixer has
`2 + frequencyDependentPanning + reverb` inputs (`core_renderer.cpp:101-103`). -/
def Config.components (c : Config) : List (List Port) :=
  [[.objectGainIn, .objectGainOut], [.objectEqIn, .objectEqOut], [.adjustIn, .adjustOut], [.vbapIn, .vbapOut],
   [.diffuseIn, .diffuseOut], [.decorrelatorIn, .decorrelatorOut],
   [.mixIn0, .mixIn1, .mixIn2, .mixIn3].take (2 + (if c.freqDep then 1 else 0) + (if c.reverb then 1 else 0)) ++ [.mixOut],
   [.subwooferIn, .subwooferOut], [.nullOut]]
  ++ (if c.freqDep then [[.vbipIn, .vbipOut], [.filterbankIn, .filterbankOut]] else [])
  ++ (if c.tracking then [[.listenerIn, .listenerOut]] else [])
  ++ (if c.eq then [[.outputEqIn, .outputEqOut]] else [])
  ++ (if c.reverb then [[.reverbIn, .reverbOut]] else [])

/-- The port object. All ports have the sample type `float`. -/
def Config.port (c : Config) (p : Port) : APort := ⟨p.id, p.input, c.width p, 0⟩

/-- `maxChannelIndex()` (`composite_component_implementation.cpp:228-236`). -/
def maxChannelIndex (l : List Nat) : Nat := l.foldl max 0

/-- A call of `audioConnection()`: of whole ports, or of lists of channels. -/
inductive Call where
  | whole (send recv : Port)
  | part (send : Port) (sendIdx : List Nat) (recv : Port) (recvIdx : List Nat)

/-- `audioConnection()` with channel lists (`composite_component_implementation.cpp:258-291`). The check of the parents
always succeeds here. -/
def connectPart (w : Port → Nat) (s : Port) (si : List Nat) (r : Port) (ri : List Nat) (conns : List AConn) :
    Outcome (List AConn) :=
  if si.length ≠ ri.length then .throw .invalidArgument
  else if si.length = 0 then .ok conns
  else if w s ≤ maxChannelIndex si then .throw .invalidArgument
  else if w r ≤ maxChannelIndex ri then .throw .invalidArgument
  else .ok (conns ++ [⟨s.id, si, r.id, ri⟩])

/-- `audioConnection()`; with whole ports: `composite_component_implementation.cpp:293-309`. -/
def connect (w : Port → Nat) : Call → List AConn → Outcome (List AConn)
  | .part s si r ri, conns => connectPart w s si r ri conns
  | .whole s r, conns =>
    if w s ≠ w r then .throw .invalidArgument
    else connectPart w s (List.range (w s)) r (List.range (w s)) conns

/-- A sequence of `audioConnection()` calls. -/
def connectAll (w : Port → Nat) : List Call → List AConn → Outcome (List AConn)
  | [], conns => .ok conns
  | k :: ks, conns => do
    let conns ← connect w k conns
    connectAll w ks conns

/-- `ChannelRange( a, b )` with unit stride, `a ≤ b`. -/
def channelRange (a b : Nat) : List Nat := List.range' a (b - a)

/-- The audio connections made before the output delays are looked at (`core_renderer.cpp:154-227`). -/
def Config.calls1 (c : Config) : List Call :=
  [.whole .audioIn .objectGainIn, .whole .objectGainOut .objectEqIn, .whole .vbapOut .mixIn0]
  ++ (if c.freqDep then
       [.part .objectEqOut (channelRange 0 c.nIn) .filterbankIn (channelRange 0 c.nIn),
        .part .objectEqOut (channelRange 0 c.nIn) .filterbankIn (channelRange c.nIn (2 * c.nIn)),
        .part .filterbankOut (channelRange 0 c.nIn) .vbapIn (channelRange 0 c.nIn),
        .part .filterbankOut (channelRange c.nIn (2 * c.nIn)) .vbipIn (channelRange 0 c.nIn),
        .whole .vbipOut .mixIn1]
      else [.whole .objectEqOut .vbapIn])
  ++ [.whole .objectEqOut .diffuseIn]

/-- The audio connections made after that, up to the connection of the outputs (`core_renderer.cpp:248-300`). -/
def Config.calls2 (c : Config) : List Call :=
  (if c.reverb then [.whole .objectEqOut .reverbIn, .whole .reverbOut (if c.freqDep then .mixIn3 else .mixIn2)] else [])
  ++ [.whole .diffuseOut .decorrelatorIn, .whole .decorrelatorOut (if c.freqDep then .mixIn2 else .mixIn1)]
  ++ (if c.tracking then
       [.whole .mixOut .listenerIn, .whole .listenerOut .subwooferIn]
       ++ (if c.eq then [.whole .listenerOut .outputEqIn]
           else [.part .listenerOut (channelRange 0 c.nL) .adjustIn (channelRange 0 c.nL)])
      else
       [.whole .mixOut .subwooferIn]
       ++ (if c.eq then
            [.part .mixOut (channelRange 0 c.nL) .outputEqIn (channelRange 0 c.nL),
             .part .subwooferOut (channelRange 0 c.nS) .outputEqIn (channelRange c.nL (c.nL + c.nS)),
             .whole .outputEqOut .adjustIn]
           else
            [.part .mixOut (channelRange 0 c.nL) .adjustIn (channelRange 0 c.nL),
             .part .subwooferOut (channelRange 0 c.nS) .adjustIn (channelRange c.nL (c.nL + c.nS))]))

/-- The two loops that collect the playback channels (`core_renderer.cpp:310-329`). The subtraction is that of
`std::size_t`. The search for unassigned channels (330-333) never finds one, because the loops have replaced every
entry by a smaller number. -/
def activeChannels (nOut : Nat) : List UInt64 → Outcome (List Nat)
  | [] => .ok []
  | ch :: chs =>
    let chIdx := (ch - 1).toNat
    if chIdx ≥ nOut then .throw .invalidArgument
    else do
      let rest ← activeChannels nOut chs
      .ok (chIdx :: rest)

/-- Whether `std::unique` finds equal neighbours (`core_renderer.cpp:336`). -/
def adjacentEqual : List Nat → Bool
  | a :: b :: l => a == b || adjacentEqual (b :: l)
  | _ => false

/-- The loop over the output channels from `idx`, `fuel` channels left, with the remaining sorted playback channels
(`core_renderer.cpp:349-365`): the channels written to `silencedPlaybackChannels`. -/
def silentLoop : Nat → Nat → List Nat → List Nat
  | 0, _, _ => []
  | fuel + 1, idx, [] => idx :: silentLoop fuel (idx + 1) []
  | fuel + 1, idx, r :: rs => if idx < r then idx :: silentLoop fuel (idx + 1) (r :: rs) else silentLoop fuel (idx + 1) rs

/-- The connection of the silent channels (`core_renderer.cpp:343-372`). Writing more channels than
`silencedPlaybackChannels` has entries is undefined. -/
def connectSilent (c : Config) (sorted : List Nat) (conns : List AConn) : Outcome (List AConn) :=
  let numSilent := c.nOut - (c.nL + c.nS)
  if numSilent > 0 then
    let silenced := silentLoop c.nOut 0 sorted
    if silenced.length > numSilent then .ub
    else if silenced.length ≠ numSilent then .throw .logicError
    else connectPart c.width .nullOut (List.replicate numSilent 0) .audioOut silenced conns
  else .ok conns

/-- The connection to the external playback channels (`core_renderer.cpp:302-372`). -/
def connectOutputs (c : Config) (conns : List AConn) : Outcome (List AConn) :=
  if c.nL + c.nS > c.nOut then .throw .invalidArgument
  else do
    let active ← activeChannels c.nOut (c.lsp ++ c.subs)
    let sorted := active.mergeSort (· ≤ ·)
    if adjacentEqual sorted then .throw .invalidArgument
    else do
      let conns ← connectPart c.width .adjustOut (channelRange 0 (c.nL + c.nS)) .audioOut active conns
      connectSilent c sorted conns

/-- All audio connections. `FirFilterMatrix` rejects more routings than `diffusionFilters` has rows
(`core_renderer.cpp:97-100`, `multichannel_convolver_uniform.cpp:76-79`); the number of output equalisation filters is
checked (137-145); the maximum of no delays is undefined (232-234). -/
def audioConnections (c : Config) : Outcome (List AConn) :=
  if c.nL > c.filters then .throw .invalidArgument
  else if c.eqFilters.any (fun n => c.nL + c.nS ≠ n) then .throw .invalidArgument
  else do
    let conns ← connectAll c.width c.calls1 []
    if c.delays = 0 then .ub
    else do
      let conns ← connectAll c.width c.calls2 conns
      connectOutputs c conns

/-- Parameter configurations: `EmptyParameterConfig`, `VectorParameterConfig`, `MatrixParameterConfig`. -/
inductive PConfig where
  | empty
  | vector (n : Nat)
  | matrix (rows cols : Nat)
  deriving DecidableEq

/-- A number for each configuration. -/
def PConfig.code : PConfig → Nat
  | .empty => Nat.pair 0 0
  | .vector n => Nat.pair 1 n
  | .matrix r c => Nat.pair 2 (Nat.pair r c)

/-- `ParameterConfigBase::compare` (`matrix_parameter_config.cpp:29-42`, `vector_parameter_config.cpp:30-43`,
`empty_parameter_config.cpp:27-39`): throws for different types of configurations, otherwise compares the dimensions. -/
def compareConfig (a b : Nat) : Option Bool :=
  if (Nat.unpair a).1 ≠ (Nat.unpair b).1 then none else some (a == b)

/-- The parameter ports of the renderer and of its components. -/
inductive PName where
  | objectData | trackingPosition
  | eqCalcObjects | eqCalcGain | eqCalcEq
  | objectGain | objectEq
  | panObjects | panListener | panVbap | panVbip | panDiffuse
  | vbapGain | vbipGain | diffuseGain
  | allradObjects | allradGainIn | allradGainOut | allradListener
  | compPosition | compGain | compDelay
  | lisGain | lisDelay
  | reverbObjects
  deriving DecidableEq

/-- The address of a parameter port. -/
def PName.id : PName → Nat
  | objectData => 0 | trackingPosition => 1
  | eqCalcObjects => 2 | eqCalcGain => 3 | eqCalcEq => 4
  | objectGain => 5 | objectEq => 6
  | panObjects => 7 | panListener => 8 | panVbap => 9 | panVbip => 10 | panDiffuse => 11
  | vbapGain => 12 | vbipGain => 13 | diffuseGain => 14
  | allradObjects => 15 | allradGainIn => 16 | allradGainOut => 17 | allradListener => 18
  | compPosition => 19 | compGain => 20 | compDelay => 21
  | lisGain => 22 | lisDelay => 23
  | reverbObjects => 24

/-- Whether a parameter port is an input of its component. -/
def PName.input : PName → Bool
  | eqCalcGain | eqCalcEq | panVbap | panVbip | panDiffuse | allradGainOut | compGain | compDelay => false
  | _ => true

/-- The protocol of a parameter port: 0 double buffering, 1 shared data (`core_renderer.hpp`, and the port types in the
component headers). -/
def PName.protocol : PName → Nat
  | panVbap | panVbip | panDiffuse | vbapGain | vbipGain | diffuseGain | allradGainIn | allradGainOut => 1
  | _ => 0

/-- The parameter type: 0 object vector, 1 listener position, 2 vector, 3 matrix, 4 biquad matrix. -/
def PName.type : PName → Nat
  | objectData | eqCalcObjects | panObjects | allradObjects | reverbObjects => 0
  | trackingPosition | panListener | allradListener | compPosition => 1
  | eqCalcGain | objectGain | compGain | compDelay | lisGain | lisDelay => 2
  | eqCalcEq | objectEq => 4
  | _ => 3

/-- The parameter configuration of a port (`object_gain_eq_calculator.cpp:25-28`, `gain_vector.cpp:56`,
`biquad_iir_filter.cpp:31-38`, `panning_calculator.cpp:88-107`, `gain_matrix.cpp:38-39`,
`hoa_allrad_gain_calculator.cpp:34-36`, `listener_compensation.cpp:48-57`, `delay_vector.cpp:76-83`). -/
def Config.pconfig (c : Config) : PName → PConfig
  | .eqCalcGain | .objectGain => .vector c.nIn
  | .compGain | .compDelay | .lisGain | .lisDelay => .vector c.nL
  | .eqCalcEq | .objectEq => .matrix c.nIn c.sections
  | .panVbap | .panVbip | .panDiffuse | .vbapGain | .vbipGain | .diffuseGain | .allradGainIn | .allradGainOut =>
    .matrix c.nL c.nIn
  | _ => .empty

/-- The port object. -/
def Config.pport (c : Config) (p : PName) : PPort := ⟨p.id, p.input, p.protocol, p.type, (c.pconfig p).code⟩

/-- The parameter inputs of the renderer (`core_renderer.cpp:82,123`). -/
def Config.ownParams (c : Config) : List PName := .objectData :: (if c.tracking then [.trackingPosition] else [])

/-- The parameter ports of the components. With tracking the panning calculator and the HOA gain calculator have a
listener position input (`panning_calculator.cpp:103-106`, `hoa_allrad_gain_calculator.cpp:37`). -/
def Config.params (c : Config) : List (List PName) :=
  [[.eqCalcObjects, .eqCalcGain, .eqCalcEq], [.objectGain], [.objectEq],
   [.panObjects, .panVbap] ++ (if c.freqDep then [.panVbip] else []) ++ [.panDiffuse]
     ++ (if c.tracking then [.panListener] else []),
   [.vbapGain], [.diffuseGain],
   [.allradObjects, .allradGainIn, .allradGainOut] ++ (if c.tracking then [.allradListener] else [])]
  ++ (if c.freqDep then [[.vbipGain]] else [])
  ++ (if c.tracking then [[.compPosition, .compGain, .compDelay], [.lisGain, .lisDelay]] else [])
  ++ (if c.reverb then [[.reverbObjects]] else [])

/-- The parameter connections (`core_renderer.cpp:114,124-127,152,155,158,174,214-216,224,257`). -/
def Config.paramCalls (c : Config) : List (PName × PName) :=
  [(.objectData, .panObjects)]
  ++ (if c.tracking then [(.trackingPosition, .compPosition), (.trackingPosition, .panListener), (.compDelay, .lisDelay),
       (.compGain, .lisGain)] else [])
  ++ [(.objectData, .eqCalcObjects), (.eqCalcGain, .objectGain), (.eqCalcEq, .objectEq)]
  ++ (if c.freqDep then [(.panVbip, .vbipGain)] else [])
  ++ [(.objectData, .allradObjects), (.panVbap, .allradGainIn), (.allradGainOut, .vbapGain), (.panDiffuse, .diffuseGain)]
  ++ (if c.reverb then [(.objectData, .reverbObjects)] else [])

/-- The constructor (`core_renderer.cpp:67-373`). Components with audio ports and components with parameter ports are
listed separately; the connection check looks at both kinds of ports separately as well. -/
def construct (c : Config) : Outcome Comp := do
  let conns ← audioConnections c
  .ok (.composite ([Port.audioIn, Port.audioOut].map c.port) (c.ownParams.map c.pport)
    ((c.components.map fun l => .atom (l.map c.port) []) ++ c.params.map fun l => .atom [] (l.map c.pport))
    conns (c.paramCalls.map fun k => ⟨k.1.id, k.2.id⟩))

end Visr.CoreRenderer
