import Verif.Outcome
import Mathlib.Tactic.SplitIfs

/-!
# Command-line options of the applications

`/repo/src/libapputilities/options.{hpp,cpp}` and the parts of `/repo/src/apps/*/main.cpp` that turn options into the
settings of an application.

Boost.Program_options and Boost.Tokenizer are not part of the repository. The functions of these libraries which
`Options` calls are modelled here from their documentation and marked as such. Simplifications: abbreviated long options
and several one-letter flags in one word ("-hv") are not modelled; names of options are the long names.
-/

namespace Visr.Options

/-- A word of the command line, a name of an option or the content of a file. -/
abbrev Word := List Char

/-- The name of the option for option files (`options.cpp:43`). -/
def optionFile : Word := "option-file".toList
/-- The name of the option for help (`options.cpp:40`). -/
def helpFlag : Word := "help".toList
/-- The name of the option for the version (`options.cpp:41`). -/
def versionFlag : Word := "version".toList

/-- The types with which options are registered: `registerOption<bool>`, `<std::string>`, `<std::size_t>`
(`options.hpp:90-100`). -/
inductive Kind where
  | flag
  | text
  | size
  deriving DecidableEq, Repr

/-- A registered option, e.g. "input-channels,i" (`options.hpp:90-107`). -/
structure Decl where
  long : Word
  short : Option Char
  kind : Kind
  deriving DecidableEq, Repr

/-- The type-erased value of an option (`boost::any`). -/
inductive Val where
  | flag (b : Bool)
  | text (s : Word)
  | size (n : Nat)
  deriving DecidableEq, Repr

/-- Boost: one parsed option with its words; the name is empty for a word which does not belong to an option. -/
structure Occ where
  key : Word
  value : List Word
  deriving DecidableEq, Repr

/-- Boost: search for an option by its long name. -/
def findLong (ds : List Decl) (n : Word) : Option Decl := ds.find? fun d => d.long = n

/-- Boost: search for an option by its one-letter name. -/
def findShort (ds : List Decl) (c : Char) : Option Decl := ds.find? fun d => d.short = some c

/-- Boost: does a word look like a registered one-letter option? Such a word is not taken as the value of the preceding
option. -/
def looksShort (ds : List Decl) (w : Word) : Bool :=
  match w with
  | ['-', c] => (findShort ds c).isSome
  | _ => false

/-- Boost, `cmdline::finish_option`: collect the value of an option, which is `adjacent` if given, else the next word.
The flag tells whether the next word was used. -/
def finish (ds : List Decl) (d : Option Decl) (adjacent : Option Word) (next : Option Word) : Outcome (Occ × Bool) :=
  match d with
  | none => .throw .logicError
  | some d =>
    match d.kind with
    | .flag => if adjacent.isSome then .throw .logicError else .ok (⟨d.long, []⟩, false)
    | _ =>
      match adjacent with
      | some v => .ok (⟨d.long, [v]⟩, false)
      | none =>
        match next with
        | none => .throw .logicError
        | some v => if looksShort ds v then .throw .logicError else .ok (⟨d.long, [v]⟩, true)

/-- Words "name=value" are split at the first `=`. -/
def splitEq (w : Word) : Word × Option Word :=
  match w.dropWhile (· ≠ '=') with
  | [] => (w, none)
  | _ :: v => (w.takeWhile (· ≠ '='), some v)

/-- `at_option_parser` (`options.cpp:22-28`): "@name" stands for the option "option-file" with the value "name". -/
def atOption (w : Word) : Option Word :=
  match w with
  | '@' :: f => some f
  | _ => none

/-- Boost, `cmdline::run`, for one word: the additional parser if there is one, long options, short options, and words
that are no options. -/
def readWord (ds : List Decl) (extra : Bool) (w : Word) (next : Option Word) : Outcome (Occ × Bool) :=
  match (if extra then atOption w else none) with
  | some f => finish ds (findLong ds optionFile) (if f = [] then none else some f) next
  | none =>
    match w with
    | '-' :: '-' :: c :: cs =>
      match splitEq (c :: cs) with
      | (_, some []) => .throw .logicError
      | (n, v) => finish ds (findLong ds n) v next
    | '-' :: c :: cs =>
      if c = '-' then .ok (⟨[], [w]⟩, false)
      else finish ds (findShort ds c) (if cs = [] then none else some cs) next
    | _ => .ok (⟨[], [w]⟩, false)

/-- Boost, `basic_command_line_parser::run` without a description of positional options. `extra`: whether
`at_option_parser` is installed. All words after "--" are no options. -/
def readWords (ds : List Decl) (extra : Bool) : List Word → Outcome (List Occ)
  | [] => .ok []
  | w :: rest =>
    if w = ['-', '-'] then .ok (rest.map fun r => ⟨[], [r]⟩)
    else
      match readWord ds extra w rest.head? with
      | .ok (o, false) => (readWords ds extra rest).map (o :: ·)
      | .ok (o, true) =>
        match rest with
        | [] => .ok [o]
        | _ :: rest' => (readWords ds extra rest').map (o :: ·)
      | .throw e => .throw e
      | .ub => .ub

/-- The number of a decimal digit. -/
def digit (c : Char) : Option Nat :=
  if '0' ≤ c ∧ c ≤ '9' then some (c.toNat - '0'.toNat) else none

/-- The value of a non-empty word of decimal digits. -/
def digits : Nat → Word → Option Nat
  | n, [] => some n
  | n, c :: cs =>
    match digit c with
    | none => none
    | some d => digits (10 * n + d) cs

/-- A number without its sign. -/
def unsigned : Word → Word
  | '-' :: cs => cs
  | '+' :: cs => cs
  | cs => cs

/-- Boost: `lexical_cast<std::size_t>` accepts an optional sign and digits; the result of a negative number is its
remainder modulo 2^64. -/
def readSize (w : Word) : Option Nat :=
  if unsigned w = [] then none
  else
    match digits 0 (unsigned w) with
    | none => none
    | some n =>
      if 2 ^ 64 ≤ n then none
      else if w.head? = some '-' then some ((2 ^ 64 - n) % 2 ^ 64) else some n

/-- Boost: the value of an option from its words; a flag has none. -/
def convert (k : Kind) (ws : List Word) : Outcome Val :=
  match k, ws with
  | .flag, _ => .ok (.flag true)
  | .text, [w] => .ok (.text w)
  | .size, [w] =>
    match readSize w with
    | some n => .ok (.size n)
    | none => .throw .logicError
  | _, _ => .throw .logicError

/-- Boost, `variable_value`: the value and whether it is a default. -/
structure Stored where
  val : Val
  isDefault : Bool
  deriving DecidableEq, Repr

/-- Boost, `variables_map`: the values and the names whose values are not changed by further calls of `store`. -/
structure Vars where
  value : Word → Option Stored
  final : List Word

/-- A new `variables_map` (`options.hpp:61`). -/
def Vars.empty : Vars := ⟨fun _ => none, []⟩

/-- Boost, first loop of `store`, for one parsed option. -/
def storeOne (ds : List Decl) (final : List Word) (m : Word → Option Stored) (o : Occ) :
    Outcome (Word → Option Stored) :=
  if o.key = [] then .ok m
  else if o.key ∈ final then .ok m
  else
    match findLong ds o.key with
    | none => .throw .logicError
    | some d =>
      match m o.key with
      | some ⟨_, false⟩ => .throw .logicError
      | _ =>
        match convert d.kind o.value with
        | .ok v => .ok fun n => if n = o.key then some ⟨v, false⟩ else m n
        | .throw e => .throw e
        | .ub => .ub

/-- Boost, first loop of `store`. -/
def storeAll (ds : List Decl) (final : List Word) (m : Word → Option Stored) : List Occ → Outcome (Word → Option Stored)
  | [] => .ok m
  | o :: os =>
    match storeOne ds final m o with
    | .ok m' => storeAll ds final m' os
    | .throw e => .throw e
    | .ub => .ub

/-- Boost, second loop of `store`: flags which are not set get the default value false (`bool_switch()`,
`options.hpp:98`). -/
def withDefaults (ds : List Decl) (m : Word → Option Stored) : Word → Option Stored := fun n =>
  match m n with
  | some s => some s
  | none =>
    match findLong ds n with
    | some ⟨_, _, .flag⟩ => some ⟨.flag false, true⟩
    | _ => none

/-- Boost, `store`. -/
def store (ds : List Decl) (os : List Occ) (v : Vars) : Outcome Vars :=
  match storeAll ds v.final v.value os with
  | .ok m => .ok ⟨withDefaults ds m, v.final ++ (os.map Occ.key).filter (· ≠ [])⟩
  | .throw e => .throw e
  | .ub => .ub

/-- `Options::hasOption` (`options.cpp:102-105`). -/
def Vars.has (v : Vars) (n : Word) : Bool := (v.value n).isSome

/-- `Options::getOption<std::string>` (`options.hpp:70-88`): the value; an exception if it is not there or has another
type. -/
def Vars.getText (v : Vars) (n : Word) : Outcome Word :=
  match v.value n with
  | some ⟨.text s, _⟩ => .ok s
  | _ => .throw .logicError

/-- `Options::getOption<std::size_t>` (`options.hpp:70-88`). -/
def Vars.getSize (v : Vars) (n : Word) : Outcome Nat :=
  match v.value n with
  | some ⟨.size s, _⟩ => .ok s
  | _ => .throw .logicError

/-- `Options::getOption<bool>` (`options.hpp:70-88`). -/
def Vars.getFlag (v : Vars) (n : Word) : Outcome Bool :=
  match v.value n with
  | some ⟨.flag s, _⟩ => .ok s
  | _ => .throw .logicError

/-- `getDefaultedOption` (`options.hpp:64-67`). -/
def Vars.textOr (v : Vars) (n dflt : Word) : Outcome Word := if v.has n then v.getText n else .ok dflt
/-- `getDefaultedOption` (`options.hpp:64-67`). -/
def Vars.sizeOr (v : Vars) (n : Word) (dflt : Nat) : Outcome Nat := if v.has n then v.getSize n else .ok dflt
/-- `getDefaultedOption` (`options.hpp:64-67`). -/
def Vars.flagOr (v : Vars) (n : Word) (dflt : Bool) : Outcome Bool := if v.has n then v.getFlag n else .ok dflt

/-- The separators of words in an option file (`options.cpp:80`). -/
def isSeparator (c : Char) : Bool := c = ' ' || c = '=' || c = '\n' || c = '\r'

/-- Boost, `escaped_list_separator::operator()` with the escape character `\`, the separators of line 80 and the quote
`"`: the words of the rest of a text, the first of which begins with `acc`. -/
def scan : Bool → Word → Word → Outcome (List Word)
  | _, acc, [] => .ok [acc]
  | q, acc, c :: cs =>
    if c = '\\' then
      match cs with
      | [] => .throw .runtimeError
      | e :: cs' =>
        if e = 'n' then scan q (acc ++ ['\n']) cs'
        else if e = '"' ∨ isSeparator e ∨ e = '\\' then scan q (acc ++ [e]) cs'
        else .throw .runtimeError
    else if isSeparator c then
      if q then scan q (acc ++ [c]) cs else (scan false [] cs).map (acc :: ·)
    else if c = '"' then scan (!q) acc cs
    else scan q (acc ++ [c]) cs

/-- The words of an option file (`options.cpp:80-84`). -/
def fileWords (text : Word) : Outcome (List Word) := if text = [] then .ok [] else scan false [] text

/-- `Options::ParseResult` (`options.hpp:24-30`). -/
inductive Result where
  | success
  | failure
  | version
  | help
  deriving DecidableEq, Repr

/-- The end of `Options::parse` (`options.cpp:89-97`). -/
def conclude (v : Vars) : Outcome (Result × Vars) :=
  match v.getFlag helpFlag with
  | .ok true => .ok (.help, v)
  | .ok false =>
    match v.getFlag versionFlag with
    | .ok true => .ok (.version, v)
    | .ok false => .ok (.success, v)
    | .throw e => .throw e
    | .ub => .ub
  | .throw e => .throw e
  | .ub => .ub

/-- `Options::parse` (`options.cpp:50-98`). `files`: the contents of the readable files. `args`: the words after the name
of the program. The values stored before a failure are not modelled. -/
def parse (ds : List Decl) (files : Word → Option Word) (args : List Word) : Outcome (Result × Vars) :=
  match (match readWords ds true args with
      | .ok os => store ds os Vars.empty
      | .throw e => .throw e
      | .ub => .ub) with
  | .throw _ => .ok (.failure, Vars.empty)
  | .ub => .ub
  | .ok v =>
    if v.has optionFile then
      match v.getText optionFile with
      | .throw e => .throw e
      | .ub => .ub
      | .ok f =>
        match files f with
        | none => .ok (.failure, v)
        | some text =>
          match fileWords text with
          | .throw e => .throw e
          | .ub => .ub
          | .ok ws =>
            match readWords ds false ws with
            | .throw e => .throw e
            | .ub => .ub
            | .ok os =>
              match store ds os v with
              | .throw e => .throw e
              | .ub => .ub
              | .ok v' => conclude v'
    else conclude v

/-! ## The object renderers -/

private def opt (long : String) (short : Option Char) (kind : Kind) : Decl := ⟨long.toList, short, kind⟩

/-- Options of every application (`options.cpp:38-44`). -/
def common : List Decl :=
  [⟨helpFlag, some 'h', .flag⟩, ⟨versionFlag, some 'v', .flag⟩, ⟨optionFile, none, .text⟩]

/-- Options of the renderers (`apps/baseline_renderer/options.cpp:17-38`, `apps/visr_renderer/options.cpp:18-39`;
"metadapter-config" only exists for the second). -/
def rendererOptions : List Decl :=
  common ++
  [opt "audio-backend" (some 'D') .text, opt "sampling-frequency" (some 'f') .size, opt "period" (some 'p') .size,
   opt "array-config" (some 'c') .text, opt "input-channels" (some 'i') .size, opt "output-channels" (some 'o') .size,
   opt "object-eq-sections" (some 'e') .size, opt "reverb-config" none .text, opt "tracking" none .text,
   opt "scene-port" (some 'r') .size, opt "metadapter-config" (some 'm') .text, opt "low-frequency-panning" none .flag,
   opt "audio-ifc-options" none .text, opt "audio-ifc-option-file" none .text]

/-- Options of the Python runner (`apps/python_runner/options.cpp`). -/
def runnerOptions : List Decl :=
  common ++
  [opt "audio-backend" (some 'D') .text, opt "sampling-frequency" (some 'f') .size, opt "period" (some 'p') .size,
   opt "module-name" (some 'm') .text, opt "python-class-name" (some 'c') .text, opt "object-name" (some 'n') .text,
   opt "positional-arguments" (some 'a') .text, opt "keyword-arguments" (some 'k') .text,
   opt "module-search-path" (some 'd') .text, opt "audio-ifc-options" none .text,
   opt "audio-ifc-option-file" none .text]

/-- A loaded loudspeaker array, reduced to what the applications ask for (`LoudspeakerArray::getNumRegularSpeakers`,
`getNumSubwoofers`), and the largest logical channel number of its configuration, which they do not ask for. -/
structure Array where
  regular : Nat
  subwoofers : Nat
  largestChannel : Nat
  deriving DecidableEq, Repr

/-- The configuration of the audio interface (`apps/visr_renderer/main.cpp:103-131`, the same lines in the other
applications). -/
def interfaceOptions (v : Vars) (files : Word → Option Word) : Outcome Word :=
  if v.has "audio-ifc-options".toList && v.has "audio-ifc-option-file".toList then .throw .invalidArgument
  else if v.has "audio-ifc-option-file".toList then
    match v.getText "audio-ifc-option-file".toList with
    | .ok f =>
      match files f with
      | some text => .ok text
      | none => .throw .invalidArgument
    | .throw e => .throw e
    | .ub => .ub
  else if v.has "audio-ifc-options".toList then v.getText "audio-ifc-options".toList
  else .ok []

/-- The diffusion filters of the loudspeakers: the first rows of the table compiled into the program
(`apps/visr_renderer/main.cpp:139-155`). `BasicMatrix::row` (`libefl/basic_matrix.hpp:213`) does not check the index:
reading a row behind the table is undefined. -/
def diffusionFilters {α : Type} (table : List (List α)) : Nat → Outcome (List (List α))
  | 0 => .ok []
  | n + 1 =>
    match diffusionFilters table n with
    | .ok rows =>
      match table[n]? with
      | some row => .ok (rows ++ [row])
      | none => .ub
    | .throw e => .throw e
    | .ub => .ub

/-- What the renderer is constructed with (`apps/visr_renderer/main.cpp:159-183`). -/
structure Settings where
  inputs : Nat
  outputs : Nat
  period : Nat
  samplingRate : Nat
  eqSections : Nat
  backend : Word
  scenePort : Nat
  tracking : Word
  reverb : Word
  lowFrequencyPanning : Bool
  interface : Word
  interpolation : Nat
  diffusionRows : List (List Int)

/-- Check and loading of the array configuration (`apps/visr_renderer/main.cpp:66-73`). A missing file leads to a message
and a failure exit code, which is an exception here. -/
def loadArray (arrays : Word → Option Array) (file : Word) : Outcome Array :=
  match arrays file with
  | some a => .ok a
  | none => .throw .invalidArgument

/-- `main` of the renderers after the options are parsed (`apps/visr_renderer/main.cpp:66-155`;
`apps/baseline_renderer/main.cpp:68-151` reads the same options). `arrays`: the loudspeaker arrays of the readable
configuration files; `table`: the compiled-in table of diffusion filters, whose coefficients are only copied.
-/
def settings (v : Vars) (files : Word → Option Word) (arrays : Word → Option Array) (table : List (List Int)) :
    Outcome Settings := do
  let c ← v.getText "array-config".toList
  let arr ← loadArray arrays c
  let outputs ← v.sizeOr "output-channels".toList (arr.regular + arr.subwoofers)
  let inputs ← v.getSize "input-channels".toList
  let period ← v.sizeOr "period".toList 1024
  let eq ← v.sizeOr "object-eq-sections".toList 0
  let rate ← v.sizeOr "sampling-frequency".toList 44100
  let backend ← v.textOr "audio-backend".toList "default".toList
  let port ← v.sizeOr "scene-port".toList 4242
  let tracking ← v.textOr "tracking".toList []
  let reverb ← v.textOr "reverb-config".toList "{}".toList
  let low ← v.flagOr "low-frequency-panning".toList false
  let spec ← interfaceOptions v files
  let rows ← diffusionFilters table arr.regular
  return ⟨inputs, outputs, period, rate, eq, backend, port, tracking, reverb, low, spec, max 2048 period, rows⟩

end Visr.Options
