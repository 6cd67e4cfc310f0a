import Verif.Wiring.Lemmas

/-!
# Python components in C++ signal flows

`/repo/src/libpythonsupport/load_module.cpp` and `/repo/src/libpythoncomponents/wrapper.cpp`.

The Python interpreter is modelled by what these functions can observe of it: the search path and the imported modules
(`Interp`), and a description of the files and classes it finds (`Python`). All exceptions of the interpreter are one
outcome. Messages are not modelled.
-/

namespace Visr.PyWrapper
open Visr Visr.Flow Visr.Wiring

abbrev Word := List Char

/-- The separators of search paths (`load_module.cpp:72`). -/
def isSeparator (c : Char) : Bool := c = ',' || c = ' '

/-- Boost, `split` with `token_compress_on` (`load_module.cpp:72`): `acc` is the current token, `inSep` whether the last
character was a separator. -/
def splitTokens : Word → Bool → Word → List Word
  | acc, _, [] => [acc]
  | acc, inSep, c :: cs =>
    if isSeparator c then
      if inSep then splitTokens acc true cs else acc :: splitTokens [] true cs
    else splitTokens (acc ++ [c]) false cs

/-- `pathStringToSequence()` (`load_module.cpp:69-87`). `there`: whether a path exists. -/
def pathList (there : Word → Bool) (s : Word) : Outcome (List Word) :=
  let paths := (splitTokens [] false s).filter (· ≠ [])
  if paths.all there then .ok paths else .throw .invalidArgument

/-- A Python object as seen through its attributes; `cls` is the number of a class. -/
inductive Obj where
  | mk (attrs : List (Word × Obj)) (cls : Option Nat)

/-- The attributes of an object. -/
def Obj.attrs : Obj → List (Word × Obj)
  | .mk a _ => a

/-- The number of a class. -/
def Obj.cls : Obj → Option Nat
  | .mk _ c => c

/-- `object::attr()`: an exception if the attribute does not exist. -/
def Obj.attr (o : Obj) (n : Word) : Option Obj := (o.attrs.find? fun a => a.1 = n).map Prod.snd

/-- The state of the interpreter: `sys.path` and `sys.modules`. -/
structure Interp where
  sysPath : List Word
  imported : List (Word × Obj)

/-- What the interpreter finds: the modules in the directories, the values of argument lists (`none`: exception or no
tuple resp. dictionary), and the components created by classes (`none`: exception; `some none`: not a component). -/
structure Python where
  find : Word → Word → Option Obj
  tuple : Word → Option (List Nat)
  dict : Word → Option (List (Word × Nat))
  construct : Nat → Word → List Nat → List (Word × Nat) → Option (Option Part)

/-- Python: `importlib.import_module`. An imported module is not loaded again; else the first directory of the search path
that contains the module counts. -/
def importModule (py : Python) (st : Interp) (n : Word) : Option Obj × Interp :=
  match st.imported.find? (fun m => m.1 = n) with
  | some m => (some m.2, st)
  | none =>
    match st.sysPath.findSome? (fun d => py.find d n) with
    | some o => (some o, { st with imported := (n, o) :: st.imported })
    | none => (none, st)

/-- `loadModule()` with two lists of paths (`load_module.cpp:30-60`): the additional path is appended to `sys.path`; the
module path is passed to the Python code, which does not use it. -/
def loadModule2 (py : Python) (st : Interp) (n : Word) (_modulePath additional : List Word) : Outcome Obj × Interp :=
  let st := { st with sysPath := st.sysPath ++ additional }
  match importModule py st n with
  | (some o, st') => (.ok o, st')
  | (none, st') => (.throw .runtimeError, st')

/-- `loadModule()` with one list of paths (`load_module.cpp:22-28`). -/
def loadModule (py : Python) (st : Interp) (n : Word) (modulePath : List Word) : Outcome Obj × Interp :=
  loadModule2 py st n modulePath modulePath

/-- `loadModule()` with a text of paths (`load_module.cpp:91-98`). -/
def loadModuleText (py : Python) (there : Word → Bool) (st : Interp) (n paths : Word) : Outcome Obj × Interp :=
  match pathList there paths with
  | .ok l => loadModule py st n l
  | .throw e => (.throw e, st)
  | .ub => (.ub, st)

/-- `loadModule()` with two texts of paths (`load_module.cpp:100-108`). -/
def loadModuleText2 (py : Python) (there : Word → Bool) (st : Interp) (n paths additional : Word) :
    Outcome Obj × Interp :=
  match pathList there paths with
  | .ok l =>
    match pathList there additional with
    | .ok a => loadModule2 py st n l a
    | .throw e => (.throw e, st)
    | .ub => (.ub, st)
  | .throw e => (.throw e, st)
  | .ub => (.ub, st)

/-- Boost, `split` at dots (`wrapper.cpp:129-130`). -/
def splitDots : Word → Word → List Word
  | acc, [] => [acc]
  | acc, c :: cs => if c = '.' then acc :: splitDots [] cs else splitDots (acc ++ [c]) cs

/-- White space (`std::isspace` in the classic locale). -/
def isSpace (c : Char) : Bool := c = ' ' || c = '\t' || c = '\n' || c = '\r' || c = '\x0b' || c = '\x0c'

/-- Boost, `trim` (`wrapper.cpp:132-133`). -/
def trim (w : Word) : Word := ((w.dropWhile isSpace).reverse.dropWhile isSpace).reverse

/-- The lookup of nested names (`wrapper.cpp:139-154`). -/
def lookup (o : Obj) : List Word → Option Obj
  | [] => some o
  | n :: ns =>
    match o.attr n with
    | some o' => lookup o' ns
    | none => none

/-- An audio port of the wrapper for a port of the contained component (`wrapper.cpp:206-236`): same direction, type and
width, another address. -/
def outerAudio (base : Nat) (p : APort) : APort := { p with id := base + p.id }

/-- A parameter port of the wrapper (`wrapper.cpp:238-265`): same direction, protocol, type and configuration. -/
def outerParam (base : Nat) (p : PPort) : PPort := { p with id := base + p.id }

/-- `audioConnection()` of whole ports (`composite_component_implementation.cpp:293-309`). -/
def connectWhole (s r : APort) (t : Tables) : Outcome Tables :=
  if s.width ≠ r.width then .throw .invalidArgument
  else connectLists s (List.range s.width) r (List.range s.width) t

/-- The loop over the audio ports (`wrapper.cpp:206-236`). -/
def connectAudio (base : Nat) : List APort → Tables → Outcome Tables
  | [], t => .ok t
  | p :: ps, t =>
    match (if p.input then connectWhole (outerAudio base p) p t else connectWhole p (outerAudio base p) t) with
    | .ok t' => connectAudio base ps t'
    | .throw e => .throw e
    | .ub => .ub

/-- The loop over the parameter ports (`wrapper.cpp:238-265`). -/
def connectParam (base : Nat) : List PPort → Tables → Tables
  | [], t => t
  | p :: ps, t => connectParam base ps
      { t with param := t.param ++ [if p.input then ⟨base + p.id, p.id⟩ else ⟨p.id, base + p.id⟩] }

/-- The ports of the wrapper and their connections around a component (`wrapper.cpp:203-265`), as a contained component of
its parent. Its name is `name` followed by "_wrapper" (`wrapper.cpp:96`). -/
def wrap (name : String) (base : Nat) (inner : Part) : Outcome Part :=
  match connectAudio base (inner.audio.map Prod.snd) ⟨[], []⟩ with
  | .ok t =>
    let t' := connectParam base (inner.param.map Prod.snd) t
    .ok ⟨name ++ "_wrapper", inner.audio.map (fun q => (q.1, outerAudio base q.2)),
      inner.param.map (fun q => (q.1, outerParam base q.2)), some ([inner.comp], t'.audio, t'.param)⟩
  | .throw e => .throw e
  | .ub => .ub

/-- `Wrapper::Wrapper` (`wrapper.cpp:86-267`). All failures until the ports are created are reported as
`std::runtime_error`. `base`: addresses for the ports of the wrapper. -/
def wrapper (py : Python) (there : Word → Bool) (st : Interp) (name : String)
    (moduleName className posArgs kwArgs paths : Word) (base : Nat) : Outcome Part × Interp :=
  match loadModuleText py there st moduleName paths with
  | (.throw _, st') => (.throw .runtimeError, st')
  | (.ub, st') => (.ub, st')
  | (.ok m, st') =>
    match lookup m ((splitDots [] className).map trim) with
    | none => (.throw .runtimeError, st')
    | some c =>
      match (if posArgs = [] then some [] else py.tuple posArgs), (if kwArgs = [] then some [] else py.dict kwArgs) with
      | some a, some k =>
        match c.cls with
        | none => (.throw .runtimeError, st')
        | some cls =>
          match py.construct cls name.toList a k with
          | some (some inner) => (wrap name base inner, st')
          | _ => (.throw .runtimeError, st')
      | _, _ => (.throw .runtimeError, st')

end Visr.PyWrapper
