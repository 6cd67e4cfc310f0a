import Verif.Outcome
import Verif.Layout.Model
import Mathlib.Tactic.TypeStar

/-!
# Execution of a signal flow

Models `AudioSignalFlow::process` and `executeComponents` (`src/librrl/audio_signal_flow.cpp:136-260`), the access to
external channels (`:263-386`, `:971-1011`) and the block counter (`src/libvisr/impl/time_implementation.cpp`).

The memory shared by components consists of cells: the channel buffers of the signal pool (identified by their address)
and the contents of parameter connections. A component reads and writes only the cells of its own ports; all its other data
form its state.
-/

namespace Visr.Execute
open Visr

variable {V S : Type*}

/-- An atomic component: the cells its ports give access to, and the effect of `process()` as a function of its state
and the memory: new state, new contents of the cells it writes, and whether it returns normally (`false`: it throws, and
the cells and its state are left as given). The result depends on memory only through the cells it reads. -/
structure Atom (V S : Type*) where
  reads : List Nat
  writes : List Nat
  step : S → (Nat → V) → S × (Nat → V) × Bool
  locality : ∀ st m m', (∀ x ∈ reads, m x = m' x) → step st m = step st m'

/-- Contents of the cells and states of the components. -/
@[ext] structure State (V S : Type*) where
  mem : Nat → V
  st : Nat → S

/-- `pc->process()` for the component `a`. -/
def runAtom (A : Nat → Atom V S) (s : State V S) (a : Nat) : State V S × Bool :=
  let r := (A a).step (s.st a) s.mem
  (⟨fun x => if x ∈ (A a).writes then r.2.1 x else s.mem x, fun b => if b = a then r.1 else s.st b⟩, r.2.2)

/-- The loop over the schedule (`audio_signal_flow.cpp:246-249`); an exception ends it. -/
def run (A : Nat → Atom V S) : List Nat → State V S → State V S × Bool
  | [], s => (s, true)
  | a :: l, s =>
    match runAtom A s a with
    | (s', true) => run A l s'
    | (s', false) => (s', false)

/-- The flow between calls: components, cells, and the block counter. -/
structure Machine (V S : Type*) where
  state : State V S
  blocks : Nat

/-- The counter after the constructor of `AudioSignalFlow` (`audio_signal_flow.cpp:113-114`). -/
def Machine.start (s : State V S) : Machine V S := ⟨s, 0⟩

/-- `Time::blockCount()` (`time_implementation.cpp:24-27`). Simplification: the counter does not wrap around. -/
def Machine.blockCount (m : Machine V S) : Nat := m.blocks

/-- `Time::sampleCount()` (`time_implementation.cpp:29-32`). -/
def Machine.sampleCount (m : Machine V S) (period : Nat) : Nat := m.blocks * period

/-- `executeComponents()` (`audio_signal_flow.cpp:220-260`, without profiling). -/
def executeComponents (A : Nat → Atom V S) (schedule : List Nat) (m : Machine V S) : Machine V S × Bool :=
  match run A schedule m.state with
  | (s', true) => (⟨s', m.blocks + 1⟩, true)
  | (s', false) => (⟨s', m.blocks⟩, false)

/-! ## Blocks of samples -/

/-- How the contents of an audio cell represent a block of `n` samples. -/
structure Codec (F V : Type*) (n : Nat) where
  enc : (Fin n → F) → V
  dec : V → Fin n → F
  dec_enc : ∀ b, dec (enc b) = b

/-- Placement of the channels in the user's memory: position of the first sample of each channel, and the distance of
successive samples. For the version of `process()` with pointer arrays `base` holds the pointers, for the other version
`base ch = ch * channelStride`. -/
structure View where
  base : Nat → Nat
  stride : Nat

/-- The samples of channel `ch` in the user's memory (source of `vectorCopy`/`vectorCopyStrided`). -/
def View.block {F : Type*} (v : View) (n : Nat) (user : Nat → F) (ch : Nat) : Fin n → F :=
  fun i => user (v.base ch + i * v.stride)

/-- Copy of the capture channels (`audio_signal_flow.cpp:143-154`, `:188-198`): the channels `ch, ch+1, …` have the given
cells. `none` is a null pointer. Simplification: copying no samples to a null pointer (period 0) is not distinguished. -/
def capture {F : Type*} {n : Nat} (k : Codec F V n) (v : View) (user : Nat → F) :
    Nat → List (Option Nat) → (Nat → V) → Outcome (Nat → V)
  | _, [], m => .ok m
  | _, none :: _, _ => .ub
  | ch, some x :: xs, m => capture k v user (ch + 1) xs fun y => if y = x then k.enc (v.block n user ch) else m y

/-- `vectorCopy()`/`vectorCopyStrided()` to the user's memory (`libefl/reference/vector_functions_impl.hpp:338-350`). -/
def store {F : Type*} {n : Nat} (addr stride : Nat) (b : Fin n → F) (user : Nat → F) : Nat → F :=
  (List.finRange n).foldl (fun u (i : Fin n) => fun y => if y = addr + i * stride then b i else u y) user

/-- Copy of the playback channels (`audio_signal_flow.cpp:163-175`, `:207-217`). -/
def playback {F : Type*} {n : Nat} (k : Codec F V n) (v : View) (m : Nat → V) :
    Nat → List (Option Nat) → (Nat → F) → Outcome (Nat → F)
  | _, [], user => .ok user
  | _, none :: _, _ => .ub
  | ch, some x :: xs, user => playback k v m (ch + 1) xs (store (v.base ch) v.stride (k.dec (m x)) user)

/-- Arguments of a call of `process()`: placement of input and output, the memory read and the memory written. -/
structure Call (F : Type*) where
  vin : View
  vout : View
  user : Nat → F
  out : Nat → F

/-- `process()` (`audio_signal_flow.cpp:136-218`): copy the capture channels, execute the components, copy the playback
channels. The result is the output memory. A failure of a component is reported as `exn`: `invalid_argument` by the version
with pointer arrays, `runtime_error` by the other. The top-level ports have the sample type `SampleType` (a port with
another type is not modelled). -/
def process {F : Type*} {n : Nat} (k : Codec F V n) (A : Nat → Atom V S) (schedule : List Nat) (cap play : List (Option Nat))
    (exn : Exn) (q : Call F) (m : Machine V S) : Machine V S × Outcome (Nat → F) :=
  match capture k q.vin q.user 0 cap m.state.mem with
  | .ok mem =>
    match executeComponents A schedule { m with state := { m.state with mem := mem } } with
    | (m', true) => (m', playback k q.vout m'.state.mem 0 play q.out)
    | (m', false) => (m', .throw exn)
  | _ => (m, .ub)

/-! ## External channels -/

/-- A top-level audio port: name, base pointer (`none`: `nullptr`), width and channel stride in bytes. -/
structure ExtPort where
  name : String
  base : Option Nat
  width : Nat
  stride : Nat

/-- `mCaptureChannels` and `mPlaybackChannels` (`audio_signal_flow.cpp:987-1010`). -/
def channelList : List ExtPort → List (Option Nat)
  | [] => []
  | p :: ps => (List.range p.width).map (fun i => p.base.map fun b => b + i * p.stride) ++ channelList ps

/-- A port of the flow after `initialiseAudioConnections()`; without buffer configuration the base pointer is still
`nullptr` and the stride 0 (`audio_port_base_implementation.cpp:20-30`). -/
def extPort (env : Layout.Env) (l : Layout.Result) (name : Nat → String) (p : Nat) : ExtPort :=
  match l.cfg (.orig p) with
  | some g => ⟨name p, some g.base, env.width p, g.stride * g.size⟩
  | none => ⟨name p, none, env.width p, 0⟩

/-- `audioCapturePortWidth()`, `audioPlaybackPortWidth()` (`audio_signal_flow.cpp:290-306`). -/
def portWidth (ports : List ExtPort) (idx : Nat) : Outcome Nat :=
  match ports[idx]? with
  | some p => .ok p.width
  | none => .throw .outOfRange

/-- `audioCapturePortOffset()`, `audioPlaybackPortOffset()` (`audio_signal_flow.cpp:308-328`). -/
def portOffset (ports : List ExtPort) (idx : Nat) : Outcome Nat :=
  if ports.length ≤ idx then .throw .outOfRange
  else .ok ((ports.take idx).foldl (fun acc p => acc + p.width) 0)

/-- `audioCapturePortIndex()`, `audioPlaybackPortIndex()` (`audio_signal_flow.cpp:330-352`). -/
def portIndex (ports : List ExtPort) (name : String) : Outcome Nat :=
  match ports.findIdx? fun p => p.name = name with
  | some i => .ok i
  | none => .throw .outOfRange

/-- `audioCapturePortName()`, `audioPlaybackPortName()` (`audio_signal_flow.cpp:272-288`). -/
def portName (ports : List ExtPort) (idx : Nat) : Outcome String :=
  match ports[idx]? with
  | some p => .ok p.name
  | none => .throw .outOfRange


/-! ## Histories -/

/-- What happens to a flow: a call of `process()`, or a change of components and parameters from outside. -/
inductive Op (F V S : Type*) where
  | call (q : Call F)
  | external (f : State V S → State V S)

/-- A history: the final flow and the results of the calls. -/
def history {F : Type*} {n : Nat} (k : Codec F V n) (A : Nat → Atom V S) (schedule : List Nat) (cap play : List (Option Nat))
    (exn : Exn) : List (Op F V S) → Machine V S → Machine V S × List (Outcome (Nat → F))
  | [], m => (m, [])
  | .call q :: ops, m =>
    let r := process k A schedule cap play exn q m
    let h := history k A schedule cap play exn ops r.1
    (h.1, r.2 :: h.2)
  | .external f :: ops, m => history k A schedule cap play exn ops { m with state := f m.state }

end Visr.Execute
