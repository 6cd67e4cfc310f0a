import Verif.Application.Model
import Verif.FilterMatrix.Model
import Verif.ChannelList.Model

/-!
# The matrix convolver application

`/repo/src/apps/matrix_convolver/main.cpp` and `options.cpp`, from the command line to the exit code. Options, index lists,
filter files and the factory of audio interfaces are those of the other parts of this model (`Verif.Options`,
`Verif.ChannelList`, `Verif.FilterMatrix`, `Verif.Application`). The text of the routings, the construction of the convolver
and of the signal flow and the operations of the audio interface are arbitrary outcomes here.

Simplifications: printed texts are not modelled; `unregisterCallback`, whose result is ignored, cannot fail
(`libaudiointerfaces/jack_interface.cpp:533-545`, `portaudio_interface.cpp:482-495`).
-/

namespace Visr.ConvolverApp

open Options (Word Vars Decl Kind)
open Application (Base Device Table Res Status loop)

private def opt (long : String) (short : Option Char) (kind : Kind) : Decl := ⟨long.toList, short, kind⟩

/-- The registered options (`apps/matrix_convolver/options.cpp:17-52`). -/
def options : List Decl :=
  Options.common ++
  [opt "audio-backend" (some 'D') .text, opt "audio-ifc-options" none .text, opt "audio-ifc-option-file" none .text,
   opt "list-audio-backends" none .flag, opt "list-fft-libraries" none .flag, opt "sampling-frequency" (some 'f') .size,
   opt "period" (some 'p') .size, opt "input-channels" (some 'i') .size, opt "output-channels" (some 'o') .size,
   opt "filters" none .text, opt "filter-file-index-offsets" none .text, opt "routings" (some 'r') .text,
   opt "max-filter-length" (some 'l') .size, opt "max-routings" none .size, opt "max-filters" none .size,
   opt "fft-library" none .text, opt "dsp-optimisation" (some 'd') .flag]

/-- What the convolver and the audio interface are created with (`main.cpp:74-119`). -/
structure Plan (K R : Type) where
  backend : Word
  inputs : Nat
  outputs : Nat
  routings : List R
  maxRoutings : Nat
  filters : FilterMatrix.Filters K
  period : Nat
  samplingRate : Nat
  fft : Word
  deriving DecidableEq

/-- Everything around the application. `routes`: `FilterRoutingList::fromJson`; `dsp`: the result of
`efl::initialiseLibrary`; `console`: the results of the reads from the standard input. -/
structure World (K R : Type) where
  files : Word → Option Word
  routes : Word → Outcome (List R)
  sort : FilterMatrix.StdSort
  disk : FilterMatrix.Disk K
  dsp : Bool
  build : Plan K R → Outcome Unit
  flow : Plan K R → Outcome Unit
  interfaces : Table
  console : Nat → Option UInt8

/-- `std::numeric_limits<std::size_t>::max()` (`main.cpp:88-89`). -/
def sizeMax : Nat := 2 ^ 64 - 1

/-- The special value of the limits (`main.cpp:87`). -/
def limit (n : Nat) : Option Nat := if n = sizeMax then none else some n

/-- A test that throws. -/
def refuse (b : Bool) (e : Exn) : Outcome Unit := if b then .throw e else .ok ()

variable {K R : Type} [Zero K]

/-- The query of the options (`main.cpp:74-111`). Index lists contain no negative numbers after they were read. -/
def plan (w : World K R) (v : Vars) : Outcome (Plan K R) := do
  let backend ← v.textOr "audio-backend".toList "default".toList
  let inputs ← v.getSize "input-channels".toList
  let outputs ← v.getSize "output-channels".toList
  let text ← v.textOr "routings".toList "[]".toList
  let routings ← w.routes text
  let maxRoutings ← v.sizeOr "max-routings".toList routings.length
  refuse (routings.length > maxRoutings) .invalidArgument
  let len ← v.sizeOr "max-filter-length".toList sizeMax
  let n ← v.sizeOr "max-filters".toList sizeMax
  let list ← v.textOr "filters".toList []
  let offsetText ← v.textOr "filter-file-index-offsets".toList []
  let offsets ← ChannelList.parse offsetText
  let filters ← FilterMatrix.initFilterMatrix w.sort w.disk list (limit len) (limit n) (offsets.map Int.toNat)
  let period ← v.sizeOr "period".toList 1024
  let rate ← v.sizeOr "sampling-frequency".toList 48000
  let fft ← v.textOr "fft-library".toList "default".toList
  let dsp ← v.flagOr "dsp-optimisation".toList false
  refuse (dsp && !w.dsp) .runtimeError
  return ⟨backend, inputs, outputs, routings, maxRoutings, filters, period, rate, fft⟩

/-- Whether a list is printed instead (`main.cpp:62-72`). -/
def lists (v : Vars) : Outcome Bool := do
  let a ← v.flagOr "list-audio-backends".toList false
  if a then return true
  else v.flagOr "list-fft-libraries".toList false

/-- What can be observed of a running application. -/
inductive Event where
  /-- `DenormalisedNumbers::setDenormHandling` and `resetDenormHandling`. -/
  | flush | unflush
  | convolver | convolverGone
  | flow | flowGone
  /-- The audio interface is created with its name, base configuration and options. -/
  | interface (n : Word) (base : Base) (spec : Word) | interfaceGone
  | callback | started | stopped | unregistered
  deriving DecidableEq, Repr

/-- A local object: its constructor, the rest of the block, its destructor. -/
def scope {α : Type} (made : Outcome α) (born gone : Event) (body : α → List Event × Res) : List Event × Res :=
  match made with
  | .ok a => (born :: (body a).1 ++ (if (body a).2.unwinds then [gone] else []), (body a).2)
  | .throw e => ([], .thrown e)
  | .ub => ([], .undefined)

/-- A call, followed by the rest of the block. -/
def act (o : Outcome Unit) (e : Event) (next : List Event × Res) : List Event × Res :=
  match o with
  | .ok _ => (e :: next.1, next.2)
  | .throw x => ([], .thrown x)
  | .ub => ([], .undefined)

/-- An expression whose value is used in the rest of the block. -/
def use {α : Type} (o : Outcome α) (next : α → List Event × Res) : List Event × Res :=
  match o with
  | .ok a => next a
  | .throw x => ([], .thrown x)
  | .ub => ([], .undefined)

/-- The base configuration of the audio interface (`main.cpp:151`). -/
def base (p : Plan K R) : Base := ⟨p.inputs, p.outputs, p.samplingRate, p.period⟩

/-- `main` from the construction of the convolver to the end of the try block (`main.cpp:113-175`), when `reads`
characters have been read. -/
def convolve (w : World K R) (v : Vars) (p : Plan K R) (reads : Nat) : List Event × Res :=
  scope (w.build p) .convolver .convolverGone fun _ =>
  scope (w.flow p) .flow .flowGone fun _ =>
  use (Options.interfaceOptions v w.files) fun spec =>
  scope (Application.create w.interfaces p.backend (base p) spec) (.interface p.backend (base p) spec) .interfaceGone fun d =>
  act d.register .callback <|
  act d.start .started <|
  match loop w.console 0 reads with
  | none => ([], .waiting)
  | some _ => act d.stop .stopped ([.unregistered, .unflush], .done)

/-- The try block (`main.cpp:59-176`). -/
def block (w : World K R) (v : Vars) (reads : Nat) : List Event × Res :=
  use (lists v) fun l =>
  if l then ([], .exit 0)
  else use (plan w v) fun p => convolve w v p reads

/-- The handler and the end of `main` (`main.cpp:177-183`). Only `std::exception`s are caught. -/
def handle (b : List Event × Res) : List Event × Status :=
  match b.2 with
  | .done => (b.1, .exit 0)
  | .exit c => (b.1, .exit c)
  | .thrown e => if e = .cString then (b.1, .aborted) else (b.1 ++ [.unflush], .exit 1)
  | .waiting => (b.1, .waiting)
  | .undefined => (b.1, .undefined)

/-- The reaction to the result of `Options::parse`, which is called outside of the try block (`main.cpp:43-57`). -/
def withOptions (w : World K R) (o : Outcome (Options.Result × Vars)) (reads : Nat) : List Event × Status :=
  match o with
  | .ok (.failure, _) => ([], .exit 1)
  | .ok (.help, _) => ([], .exit 0)
  | .ok (.version, _) => ([], .exit 0)
  | .ok (.success, v) => handle (block w v reads)
  | .throw _ => ([], .aborted)
  | .ub => ([], .undefined)

/-- `main` of the matrix convolver (`main.cpp:33-184`). `args`: the words after the name of the program; `reads`: how often
the standard input has been read so far. -/
def main (w : World K R) (args : List Word) (reads : Nat) : List Event × Status :=
  (.flush :: (withOptions w (Options.parse options w.files args) reads).1,
    (withOptions w (Options.parse options w.files args) reads).2)

end Visr.ConvolverApp
