import Verif.Options.Model
import Mathlib.Data.List.Lex
import Mathlib.Data.Char

/-!
# The life of a renderer application

The factory of audio interfaces (`libaudiointerfaces/audio_interface_factory.cpp`) and `main` of the object renderers
(`apps/visr_renderer/main.cpp`, `apps/baseline_renderer/main.cpp`), from the parsed options to the exit code. The
construction of the renderer and of the signal flow and the operations of the audio interfaces are arbitrary outcomes here;
other parts of this model describe them.
-/

namespace Visr.Application

open Options (Word Settings Array)

/-- `AudioInterface::Configuration` (`libaudiointerfaces/audio_interface.hpp`), as constructed in
`apps/visr_renderer/main.cpp:101`. -/
structure Base where
  inputs : Nat
  outputs : Nat
  samplingRate : Nat
  period : Nat
  deriving DecidableEq, Repr

/-- The operations of an audio interface that `main` calls (`apps/visr_renderer/main.cpp:186,193,203`). -/
structure Device where
  register : Outcome Unit
  start : Outcome Unit
  stop : Outcome Unit

/-- `TCreator::construct` of one class of audio interfaces (`audio_interface_factory.hpp:77-81`). -/
abbrev Backend := Base → Word → Outcome Device

/-- `CreatorTable` (`audio_interface_factory.hpp:84`): a `std::map`, in the order of the names. Names are compared by
characters instead of bytes, which is the same order for text in UTF-8. -/
abbrev Table := List (Word × Backend)

/-- `std::map::insert` in `registerAudioInterfaceType` (`audio_interface_factory.hpp:89-93`): an existing entry stays. -/
def insert : Table → Word → Backend → Table
  | [], n, b => [(n, b)]
  | (k, c) :: t, n, b =>
    if n < k then (n, b) :: (k, c) :: t
    else if k < n then (k, c) :: insert t n b
    else (k, c) :: t

/-- The registrations made so far, in the order in which they were made. -/
def registerAll (regs : List (Word × Backend)) : Table := regs.foldl (fun t r => insert t r.1 r.2) []

/-- `InstantiateAudioInterfaceFactory` (`audio_interface_factory.cpp:72-85`): the interfaces compiled into the library. -/
def builtin (jack portaudio : Option Backend) : List (Word × Backend) :=
  (match jack with
    | some b => [("Jack".toList, b)]
    | none => []) ++
  (match portaudio with
    | some b => [("PortAudio".toList, b)]
    | none => [])

/-- `AudioInterfaceFactory::audioInterfacesList` (`audio_interface_factory.cpp:33-42`). -/
def names (t : Table) : List Word := t.map Prod.fst

/-- `std::map::find`: the entry that is neither smaller nor larger. -/
def find : Table → Word → Option Backend
  | [], _ => none
  | (k, c) :: t, n => if n < k then none else if k < n then find t n else some c

/-- `AudioInterfaceFactory::create` (`audio_interface_factory.cpp:50-66`). -/
def create (t : Table) (n : Word) (base : Base) (spec : Word) : Outcome Device :=
  match find t n with
  | none => .throw .invalidArgument
  | some b => b base spec

/-- What can be observed of a running application. -/
inductive Event where
  /-- `DenormalisedNumbers::setDenormHandling` and `resetDenormHandling`. -/
  | flush | unflush
  /-- The renderer component exists, from then on its network ports are in use. -/
  | renderer | rendererGone
  | flow | flowGone
  /-- The audio interface is created with its name, base configuration and options. -/
  | interface (n : Word) (base : Base) (spec : Word) | interfaceGone
  | callback | started | stopped
  deriving DecidableEq, Repr

/-- How a block of `main` is left: at its end, by `return`, by an exception, or not yet. -/
inductive Res where
  | done
  | exit (code : Nat)
  | thrown (e : Exn)
  | waiting
  | undefined
  deriving DecidableEq, Repr

/-- Whether local objects are destroyed: when the block is left, and for exceptions if a handler exists. Only
`std::exception`s are caught (`main.cpp:209`); whether the stack is unwound for others is up to the implementation
([except.terminate]), here it is not. -/
def Res.unwinds : Res → Bool
  | .done => true
  | .exit _ => true
  | .thrown e => e ≠ .cString
  | .waiting => false
  | .undefined => false

/-- A local object: its constructor, the rest of the block, its destructor. -/
def scope {α : Type} (made : Outcome α) (born gone : Event) (body : α → List Event × Res) : List Event × Res :=
  match made with
  | .ok a => (born :: (body a).1 ++ (if (body a).2.unwinds then [gone] else []), (body a).2)
  | .throw e => ([], .thrown e)
  | .ub => ([], .undefined)

/-- A call, followed by the rest of the block. -/
def act (o : Outcome Unit) (e : Event) (next : List Event × Res) : List Event × Res :=
  match o with
  | .ok _ => (e :: next.1, next.2)
  | .throw x => ([], .thrown x)
  | .ub => ([], .undefined)

/-- `c = std::getc( stdin )` and the comparison with 'q' (`main.cpp:196-201`); `none`: `EOF`, whose conversion to `char` is
not a letter. -/
def isQuit : Option UInt8 → Bool
  | some b => b = 113
  | none => false

/-- The loop that waits for 'q' (`main.cpp:197-201`): the number of characters read when it ends; `none` if it is still
running after `fuel` characters. -/
def loop (console : Nat → Option UInt8) (k : Nat) : Nat → Option Nat
  | 0 => none
  | n + 1 => if isQuit (console k) then some (k + 1) else loop console (k + 1) n

/-- Everything around the application. `console`: the results of the reads from the standard input. -/
structure World where
  files : Word → Option Word
  arrays : Word → Option Array
  table : List (List Int)
  build : Settings → Outcome Unit
  flow : Settings → Outcome Unit
  interfaces : Table
  console : Nat → Option UInt8

/-- The base configuration of the audio interface (`main.cpp:101`). -/
def base (s : Settings) : Base := ⟨s.inputs, s.outputs, s.samplingRate, s.period⟩

/-- `main` from the construction of the renderer (`apps/visr_renderer/main.cpp:157-207`,
`apps/baseline_renderer/main.cpp:150-192`), when `reads` characters have been read. -/
def render (w : World) (s : Settings) (reads : Nat) : List Event × Res :=
  scope (w.build s) .renderer .rendererGone fun _ =>
  scope (w.flow s) .flow .flowGone fun _ =>
  scope (create w.interfaces s.backend (base s) s.interface) (.interface s.backend (base s) s.interface) .interfaceGone fun d =>
  act d.register .callback <|
  act d.start .started <|
  match loop w.console 0 reads with
  | none => ([], .waiting)
  | some _ => act d.stop .stopped ([.unflush], .done)

/-- The reaction to the result of the settings. -/
def withSettings (w : World) (o : Outcome Settings) (reads : Nat) : List Event × Res :=
  match o with
  | .ok s => render w s reads
  | .throw e => ([], .thrown e)
  | .ub => ([], .undefined)

/-- The reaction to the result of `Options::parse` (`main.cpp:55-70`). -/
def withOptions (w : World) (o : Outcome (Options.Result × Options.Vars)) (reads : Nat) : List Event × Res :=
  match o with
  | .ok (.failure, _) => ([], .exit 1)
  | .ok (.help, _) => ([], .exit 0)
  | .ok (.version, _) => ([], .exit 0)
  | .ok (.success, v) => withSettings w (Options.settings v w.files w.arrays w.table) reads
  | .throw e => ([], .thrown e)
  | .ub => ([], .undefined)

/-- What the application has come to. -/
inductive Status where
  | exit (code : Nat)
  | waiting
  /-- `std::terminate` -/
  | aborted
  | undefined
  deriving DecidableEq, Repr

/-- The end of `main` (`main.cpp:209-215`). -/
def conclude : Res → Status
  | .done => .exit 0
  | .exit c => .exit c
  | .thrown e => if e = .cString then .aborted else .exit 1
  | .waiting => .waiting
  | .undefined => .undefined

/-- `main` of the renderers (`apps/visr_renderer/main.cpp:40-216`, `apps/baseline_renderer/main.cpp:34-201`). `args`: the
words after the name of the program; `reads`: how often the standard input has been read so far. -/
def main (w : World) (args : List Word) (reads : Nat) : List Event × Status :=
  (.flush :: (withOptions w (Options.parse Options.rendererOptions w.files args) reads).1,
    conclude (withOptions w (Options.parse Options.rendererOptions w.files args) reads).2)

end Visr.Application
