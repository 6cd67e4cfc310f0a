import Verif.Outcome
import Verif.Run
import Verif.PTree
import Verif.Efl.Aligned

/-!
# The PortAudio interface

Model of `src/libaudiointerfaces/portaudio_interface.{hpp,cpp}` and of the buffer area it
uses (`src/librrl/communication_area.{hpp,cpp}`).

Modelled: the configuration options, the choice of the host API and of the devices, the
construction and destruction with their calls of the PortAudio library, `start()`,
`stop()`, the registration of the processing function, and the exchange of samples in the
callback of the library, down to the single memory accesses.

The PortAudio library is represented by its documented behaviour: the results of its
functions are inputs of the model.  Not modelled: the JSON syntax, the texts of messages,
latencies, dithering, and operations of the user while the callback is executing
(the operations are executed one after another).
-/

namespace Visr.PortAudio
open Visr

/-- `Config::SampleFormat::Type` (`portaudio_interface.hpp:32-47`). -/
inductive Format where
  | s8 | u8 | s16 | u16 | s24 | u24 | s32 | u32 | f32
  deriving DecidableEq, Repr

/-- `Config::translateToSampleFormat` (`portaudio_interface.hpp:49-70`). -/
def formatOfName (n : String) : Outcome Format :=
  if n = "signedInt8Bit" then .ok .s8
  else if n = "unsignedInt8Bit" then .ok .u8
  else if n = "signedInt16Bit" then .ok .s16
  else if n = "unsignedInt16Bit" then .ok .u16
  else if n = "signedInt24Bit" then .ok .s24
  else if n = "unsignedInt24Bit" then .ok .u24
  else if n = "signedInt32Bit" then .ok .s32
  else if n = "unsignedInt32Bit" then .ok .u32
  else if n = "float32Bit" then .ok .f32
  else .throw .invalidArgument

/-- The sample formats of the PortAudio library (`paInt8`, `paUInt8`, ...). -/
inductive PaSample where
  | int8 | uint8 | int16 | int24 | int32 | float32
  deriving DecidableEq, Repr

/-- A `PaSampleFormat`: the sample type and the flag `paNonInterleaved`. -/
structure PaFormat where
  sample : PaSample
  nonInterleaved : Bool
  deriving DecidableEq, Repr

/-- `cTranslateSampleFormatMap` (`portaudio_interface.cpp:31-38`). -/
def paSample : Format → Option PaSample
  | .s8 => some .int8
  | .u8 => some .uint8
  | .s16 => some .int16
  | .s24 => some .int24
  | .s32 => some .int32
  | .f32 => some .float32
  | _ => none

/-- `translateSampleFormat` (`portaudio_interface.cpp:43-58`). -/
def translateSampleFormat (f : Format) (interleaved : Bool) : Outcome PaFormat :=
  match paSample f with
  | none => .throw .invalidArgument
  | some s => if interleaved then .ok ⟨s, false⟩ else .ok ⟨s, true⟩

/-- The options in the configuration string (`portaudio_interface.cpp:440-446`), after JSON
parsing. -/
structure Options where
  sampleformat : Entry String := .missing
  interleaved : Entry Bool := .missing
  hostapi : Entry String := .missing
  inputDevice : Entry (List Char) := .missing
  outputDevice : Entry (List Char) := .missing

/-- `PortaudioInterface::Config` (`portaudio_interface.hpp:29-109`), the members that are
used. -/
structure Config where
  format : Format
  interleaved : Bool
  hostApi : String
  inputDevice : List Char
  outputDevice : List Char

/-- `parseSpecificConf` (`portaudio_interface.cpp:425-447`) and the constructor of `Config`
(`:642-648`); `none`: the text is no JSON. -/
def parseSpecificConf : Option Options → Outcome Config
  | none => .throw .invalidArgument
  | some o => do
    let f ← formatOfName (o.sampleformat.getD "float32Bit")
    .ok ⟨f, o.interleaved.getD false, o.hostapi.getD "default", o.inputDevice.getD [], o.outputDevice.getD []⟩

/-- The names of host APIs (`portaudio_interface.cpp:62-78`). -/
def hostApiNames : List String :=
  ["default", "DirectSound", "MME", "ASIO", "SoundManager", "CoreAudio", "OSS", "ALSA", "AL", "BeOS",
   "WDMKS", "JACK", "WASAPI", "AudioScienceHPI"]

/-- `PaDeviceInfo`: the members that are used. -/
structure Device where
  name : List Char
  maxIn : Nat
  maxOut : Nat
  deriving DecidableEq, Repr

/-- `PaHostApiInfo`: the devices of the host API with their global indices, and the global
indices of the default devices (`none` is `paNoDevice`). -/
structure HostApi where
  devices : List (Nat × Device)
  defaultIn : Option Nat
  defaultOut : Option Nat

/-- The state and the answers of the PortAudio library: the number of initialisations,
`Pa_Initialize` succeeds, the host APIs by name (`"default"` is the one of
`Pa_GetDefaultHostApi`), `Pa_GetDeviceInfo`, the formats that `Pa_IsFormatSupported`
accepts for an input and an output device, and whether `Pa_OpenStream` succeeds. -/
structure Lib where
  initCount : Nat
  initOk : Bool
  hostApi : String → Option HostApi
  info : Nat → Option Device
  supported : Nat → Nat → PaFormat → Bool
  openOk : Bool

/-- The comparison `strncmp( name, info->name, strlen( info->name ) ) == 0`
(`portaudio_interface.cpp:248`).  Simplification: names contain no null characters. -/
def nameMatches (name dev : List Char) : Bool := name.take dev.length == dev

/-- The search loop of `findDevice` (`portaudio_interface.cpp:240-253`). -/
def searchDevice (name : List Char) : List (Nat × Device) → Option Nat
  | [] => none
  | (i, d) :: rest => if nameMatches name d.name then some i else searchDevice name rest

/-- `findDevice` (`portaudio_interface.cpp:224-303`).  An index without information would be
a null pointer dereference. -/
def findDevice (lib : Lib) (api : HostApi) (name : List Char) (minChannels : Nat) (isInput : Bool) :
    Outcome Nat :=
  let idx :=
    if name = [] then (if isInput then api.defaultIn else api.defaultOut)
    else searchDevice name api.devices
  match idx with
  | none => .throw .invalidArgument
  | some i =>
    match lib.info i with
    | none => .ub
    | some d =>
      if (if isInput then d.maxIn else d.maxOut) < minChannels then .throw .runtimeError else .ok i

/-- The buffer the library passes to the callback: for interleaved formats an array of
samples, else an array of pointers to arrays of samples. -/
inductive Buf (α : Type) where
  | flat (d : List α)
  | planar (d : List (List α))
  deriving DecidableEq, Repr

/-- The data members of `PortaudioInterface::Impl` (`portaudio_interface.cpp:95-179`) used
after construction.  `mem` is the storage of the communication area, `capPtr` and `playPtr`
are the offsets `mCaptureSampleBuffers` and `mPlaybackSampleBuffers` point to. -/
structure Iface (α F U : Type) where
  nCap : Nat
  nPlay : Nat
  period : Nat
  format : Format
  interleaved : Bool
  callback : Option (F × U)
  mem : List α
  capPtr : List Nat
  playPtr : List Nat
  deriving DecidableEq

/-- `CommunicationArea::mSignalStride` (`communication_area.cpp:25`); `cVectorAlignmentSamples`
is `align`. -/
def stride (period align : Nat) : Nat := Efl.nextAlignedSize period align

/-- `CommunicationArea::at` (`communication_area.hpp:72-79`). -/
def areaAt (numSignals str index : Nat) : Outcome Nat :=
  if index ≥ numSignals then .throw .outOfRange else .ok (str * index)

/-- The loops setting the buffer pointers (`portaudio_interface.cpp:326-333`); `first` is the
first signal. -/
def pointers (numSignals str first : Nat) : Nat → Outcome (List Nat)
  | 0 => .ok []
  | n + 1 => do
    let ps ← pointers numSignals str first n
    let p ← areaAt numSignals str (first + n)
    .ok (ps ++ [p])

/-- The part of the constructor up to the initialisation of the library
(`portaudio_interface.cpp:307-333`): the zero-initialised area and the pointers into it. -/
def prepare {α F U : Type} [Zero α] (align nCap nPlay period : Nat) (c : Config) : Outcome (Iface α F U) := do
  let str := stride period align
  let cp ← pointers (nCap + nPlay) str 0 nCap
  let pp ← pointers (nCap + nPlay) str nCap nPlay
  .ok ⟨nCap, nPlay, period, c.format, c.interleaved, none, List.replicate ((nCap + nPlay) * str) 0, cp, pp⟩

/-- The parameters of the stream passed to `Pa_OpenStream` (`portaudio_interface.cpp:380-406`). -/
structure StreamParams where
  inDevice : Nat
  outDevice : Nat
  inChannels : Nat
  outChannels : Nat
  format : PaFormat
  frames : Nat
  deriving DecidableEq, Repr

/-- The part of the constructor after the initialisation of the library
(`portaudio_interface.cpp:343-411`). -/
def openStream (lib : Lib) (c : Config) (nCap nPlay period : Nat) : Outcome StreamParams := do
  if c.hostApi ∈ hostApiNames then
    match lib.hostApi c.hostApi with
    | none => .throw .logicError
    | some api =>
      let i ← findDevice lib api c.inputDevice nCap true
      let o ← findDevice lib api c.outputDevice nPlay false
      let f ← translateSampleFormat c.format c.interleaved
      if lib.supported i o f then
        if lib.openOk then .ok ⟨i, o, nCap, nPlay, f, period⟩ else .throw .runtimeError
      else .throw .invalidArgument
  else .throw .invalidArgument

/-- The constructor (`portaudio_interface.cpp:307-412`): the interface, the parameters of
the open stream, and the number of initialisations of the library.  If it throws after
`Pa_Initialize`, the destructor of `Impl` is not executed. -/
def construct {α F U : Type} [Zero α] (lib : Lib) (align nCap nPlay period : Nat) (conf : Option Options) :
    Nat × Outcome (Iface α F U × StreamParams) :=
  match parseSpecificConf conf with
  | .throw e => (lib.initCount, .throw e)
  | .ub => (lib.initCount, .ub)
  | .ok c =>
    match prepare (α := α) (F := F) (U := U) align nCap nPlay period c with
    | .throw e => (lib.initCount, .throw e)
    | .ub => (lib.initCount, .ub)
    | .ok iface =>
      if lib.initOk then
        match openStream lib c nCap nPlay period with
        | .ok p => (lib.initCount + 1, .ok (iface, p))
        | .throw e => (lib.initCount + 1, .throw e)
        | .ub => (lib.initCount + 1, .ub)
      else (lib.initCount, .throw .runtimeError)

/-- The inner loops of `transferPlaybackBuffers` and `transferCaptureBuffers`
(`portaudio_interface.cpp:555-559`, `:579-583`): `n` elements are copied; the source position
advances by `ss`, the destination position by `ds`. -/
def copyLoop {α : Type} (src : List α) (ss ds : Nat) : Nat → Nat → Nat → List α → Outcome (List α)
  | 0, _, _, dst => .ok dst
  | n + 1, s, d, dst =>
    match src[s]? with
    | none => .ub
    | some v => if d < dst.length then copyLoop src ss ds n (s + ss) (d + ds) (dst.set d v) else .ub

variable {α F U : Type}

/-- One iteration of the outer loop of `transferCaptureBuffers`
(`portaudio_interface.cpp:570-584`). -/
def captureChannel (x : Iface α F U) (input : Buf α) (mem : List α) (c : Nat) : Outcome (List α) :=
  match x.capPtr[c]? with
  | none => .ub
  | some out =>
    let inStride := if x.interleaved then x.nCap else 1
    match x.interleaved, input with
    | true, .flat d => copyLoop d inStride 1 x.period c out mem
    | false, .planar d =>
      match d[c]? with
      | none => .ub
      | some ch => copyLoop ch inStride 1 x.period 0 out mem
    | _, _ => .ub

/-- `transferCaptureBuffers` (`portaudio_interface.cpp:563-585`). -/
def transferCapture (x : Iface α F U) (input : Buf α) : Outcome (Iface α F U) :=
  if x.format ≠ .f32 then .throw .invalidArgument
  else do
    let m ← (List.range x.nCap).foldlM (captureChannel x input) x.mem
    .ok { x with mem := m }

/-- One iteration of the outer loop of `transferPlaybackBuffers`
(`portaudio_interface.cpp:546-560`). -/
def playbackChannel (x : Iface α F U) (output : Buf α) (c : Nat) : Outcome (Buf α) :=
  match x.playPtr[c]? with
  | none => .ub
  | some inp =>
    let outStride := if x.interleaved then x.nPlay else 1
    match x.interleaved, output with
    | true, .flat d => do
      let r ← copyLoop x.mem 1 outStride x.period inp c d
      .ok (.flat r)
    | false, .planar d =>
      match d[c]? with
      | none => .ub
      | some ch => do
        let r ← copyLoop x.mem 1 outStride x.period inp 0 ch
        .ok (.planar (d.set c r))
    | _, _ => .ub

/-- `transferPlaybackBuffers` (`portaudio_interface.cpp:539-561`). -/
def transferPlayback (x : Iface α F U) (output : Buf α) : Outcome (Buf α) :=
  if x.format ≠ .f32 then .throw .invalidArgument
  else (List.range x.nPlay).foldlM (playbackChannel x) output

/-- What a processing function does to the channels it is given: it reads the captured
samples, replaces the samples to be played, changes the state of the program, and may
throw (`AudioInterface::AudioCallback`, `audio_interface.hpp:71-76`).  The status flag is
ignored by the interface. -/
abbrev Proc (α F U σ : Type) :=
  F → U → σ → List (List α) → List (List α) → σ × List (List α) × Option Exn

/-- The channels of `period` samples seen through an array of pointers. -/
def view (mem : List α) (ptrs : List Nat) (period : Nat) : List (List α) :=
  ptrs.map fun p => (mem.drop p).take period

/-- The processing function writes one channel through a pointer. -/
def storeChannel (ptrs : List Nat) (period : Nat) (chs : List (List α)) (mem : List α) (c : Nat) :
    Outcome (List α) :=
  match ptrs[c]?, chs[c]? with
  | some p, some ch => copyLoop ch 1 1 period 0 p mem
  | _, _ => .ub

/-- The processing function writes all channels through the array of pointers. -/
def store (mem : List α) (ptrs : List Nat) (period : Nat) (chs : List (List α)) : Outcome (List α) :=
  (List.range ptrs.length).foldlM (storeChannel ptrs period chs) mem

/-- What the PortAudio library gets back from its callback: a return value with the
contents of the output buffer, or a C++ exception, or undefined behaviour. -/
inductive Ret (α : Type) where
  | continue (output : Buf α)
  | abort (output : Buf α)
  | escapes (e : Exn)
  | ub
  deriving DecidableEq, Repr

/-- `transferPlaybackBuffers` and the return value (`portaudio_interface.cpp:529-531`). -/
def finish (x : Iface α F U) (output : Buf α) : Ret α :=
  match transferPlayback x output with
  | .ok o => .continue o
  | .throw e => .escapes e
  | .ub => .ub

/-- `engineCallbackFunction` (`portaudio_interface.cpp:509-537`).  Only classes derived from
`std::exception` are caught. -/
def engineCallback {σ : Type} (proc : Proc α F U σ) (x : Iface α F U) (w : σ) (input output : Buf α) :
    Iface α F U × σ × Ret α :=
  match x.callback with
  | none => (x, w, .continue output)
  | some (f, u) =>
    match transferCapture x input with
    | .throw e => (x, w, .escapes e)
    | .ub => (x, w, .ub)
    | .ok x1 =>
      let r := proc f u w (view x1.mem x1.capPtr x1.period) (view x1.mem x1.playPtr x1.period)
      match store x1.mem x1.playPtr x1.period r.2.1 with
      | .throw e => (x1, r.1, .escapes e)
      | .ub => (x1, r.1, .ub)
      | .ok m =>
        let x2 := { x1 with mem := m }
        match r.2.2 with
        | some .cString => (x2, r.1, .escapes .cString)
        | some _ => (x2, r.1, .abort output)
        | none => (x2, r.1, finish x2 output)

/-- The stream of the library: open but not started, running, ended by the return value of
the callback, or closed.  The pointer to a closed stream is invalid. -/
inductive Stream where
  | stopped
  | running
  | finished
  | closed
  deriving DecidableEq, Repr

/-- The interface, its stream, and the state of the rest of the program. -/
structure State (α F U σ : Type) where
  iface : Iface α F U
  stream : Stream
  world : σ

/-- The operations on an interface: those of the user, with the success of the library
functions called, and the arrival of a block of samples. -/
inductive Op (α F U : Type) where
  | register (f : F) (u : U)
  | unregister (f : F)
  | start (ok : Bool)
  | stop (stopOk closeOk : Bool)
  | block (input output : Buf α)

/-- The results of the operations.  `silent`: the stream is not running, the library does
not call back. -/
inductive Result (α : Type) where
  | bool (b : Bool)
  | done
  | throws (e : Exn)
  | block (r : Ret α)
  | silent
  | ub
  deriving DecidableEq, Repr

/-- `start` (`portaudio_interface.cpp:449-457`).  `Pa_StartStream` fails if the stream is not
stopped. -/
def startStep (s : Stream) (ok : Bool) : Stream × Result α :=
  match s with
  | .closed => (s, .ub)
  | .stopped => if ok then (.running, .done) else (s, .throws .runtimeError)
  | _ => (s, .throws .runtimeError)

/-- `stop` (`portaudio_interface.cpp:459-473`).  `Pa_StopStream` fails if the stream is
stopped. -/
def stopStep (s : Stream) (stopOk closeOk : Bool) : Stream × Result α :=
  match s with
  | .closed => (s, .ub)
  | .stopped => (s, .throws .runtimeError)
  | _ =>
    if stopOk then (if closeOk then (.closed, .done) else (.stopped, .throws .runtimeError))
    else (s, .throws .runtimeError)

/-- `unregisterCallback` (`portaudio_interface.cpp:482-494`). -/
def unregister [DecidableEq F] (x : Iface α F U) (f : F) : Iface α F U × Bool :=
  match x.callback with
  | none => (x, false)
  | some (g, _) => if g = f then ({ x with callback := none }, true) else (x, false)

/-- The stream after the return of the callback. -/
def afterCallback (s : Stream) : Ret α → Stream
  | .abort _ => .finished
  | _ => s

/-- One operation. -/
def step {σ : Type} [DecidableEq F] (proc : Proc α F U σ) (s : State α F U σ) :
    Op α F U → State α F U σ × Result α
  | .register f u => ({ s with iface := { s.iface with callback := some (f, u) } }, .bool true)
  | .unregister f =>
    let r := unregister s.iface f
    ({ s with iface := r.1 }, .bool r.2)
  | .start ok =>
    let r := startStep s.stream ok
    ({ s with stream := r.1 }, r.2)
  | .stop a b =>
    let r := stopStep s.stream a b
    ({ s with stream := r.1 }, r.2)
  | .block i o =>
    match s.stream with
    | .running =>
      let r := engineCallback proc s.iface s.world i o
      (⟨r.1, afterCallback s.stream r.2.2, r.2.1⟩, .block r.2.2)
    | _ => (s, .silent)

/-- The streams of all interfaces, by owner, and the number of initialisations. -/
structure Streams where
  initCount : Nat
  streams : List (Nat × Stream)
  deriving DecidableEq

/-- The destructor (`portaudio_interface.cpp:414-422`): `Pa_Terminate`, which closes the open
streams when it matches the first initialisation. -/
def destroy (s : Streams) : Streams :=
  if s.initCount ≤ 1 then ⟨0, s.streams.map fun p => (p.1, .closed)⟩ else { s with initCount := s.initCount - 1 }

end Visr.PortAudio
