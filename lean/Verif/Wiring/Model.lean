import Verif.CoreRenderer.Model
import Mathlib.Data.List.Dedup

/-!
# Building composite components

Models how the constructor of a composite component creates its ports and contained components and connects them
(`src/libvisr/impl/composite_component_implementation.cpp`, `component_implementation.cpp`, `src/libvisr/component.cpp`):
a list of declared ports and components and a sequence of connection calls which name components and ports. The result is
a component tree of `Verif/Flow`.

The check that the ports belong to the composite or its contained components (`checkPortParent()`) always succeeds here,
because ports are looked up by component. Messages are not modelled.
-/

namespace Visr.Wiring
open Visr Visr.Flow

/-- A contained component as its composite sees it: its name, its named audio and parameter ports, and, if it is itself
composite, the contained components and connections. -/
structure Part where
  name : String
  audio : List (String × APort)
  param : List (String × PPort)
  body : Option (List Comp × List AConn × List PConn) := none

/-- The component. -/
def Part.comp (p : Part) : Comp :=
  match p.body with
  | none => .atom (p.audio.map Prod.snd) (p.param.map Prod.snd)
  | some b => .composite (p.audio.map Prod.snd) (p.param.map Prod.snd) b.1 b.2.1 b.2.2

/-- A composite under construction: its own ports and the contained components. -/
structure Site where
  audio : List (String × APort)
  param : List (String × PPort)
  parts : List Part

/-- `findComponent()` (`composite_component_implementation.cpp:98-116`): the empty name and `"this"` denote the composite
itself, given by its ports. -/
def Site.findComponent (s : Site) (name : String) : Option Part :=
  if name = "" ∨ name = "this" then some ⟨"", s.audio, s.param, none⟩ else s.parts.find? fun p => p.name = name

/-- `findAudioPort()` (`composite_component_implementation.cpp:118-127`, `component_implementation.cpp:199-207`). -/
def Site.findAudio (s : Site) (comp port : String) : Option APort :=
  match s.findComponent comp with
  | none => none
  | some p => (p.audio.find? fun q => q.1 = port).map Prod.snd

/-- `findParameterPort()` (`composite_component_implementation.cpp:129-137`, `component_implementation.cpp:280-288`). -/
def Site.findParam (s : Site) (comp port : String) : Option PPort :=
  match s.findComponent comp with
  | none => none
  | some p => (p.param.find? fun q => q.1 = port).map Prod.snd

/-- A connection call. `audio`: `audioConnection( port, port )`; `audioLists`: `audioConnection( port, channels, port,
channels )`; `audioNamed`: `audioConnection()` with component and port names; `param`: `parameterConnection()` with ports
or with names. Ports are retrieved with `audioPort()` and `parameterPort()`, which throw if the port does not exist
(`component.cpp:78-86,109-117`). -/
inductive Stmt where
  | audio (sc sp rc rp : String)
  | audioLists (sc sp : String) (si : List Nat) (rc rp : String) (ri : List Nat)
  | audioNamed (sc sp : String) (si : List Nat) (rc rp : String) (ri : List Nat)
  | param (sc sp rc rp : String)

/-- The connection tables. -/
structure Tables where
  audio : List AConn
  param : List PConn

/-- `audioConnection()` of ports with channel lists (`composite_component_implementation.cpp:258-291`). -/
def connectLists (s : APort) (si : List Nat) (r : APort) (ri : List Nat) (t : Tables) : Outcome Tables :=
  if si.length ≠ ri.length then .throw .invalidArgument
  else if si.length = 0 then .ok t
  else if s.width ≤ si.foldl max 0 then .throw .invalidArgument
  else if r.width ≤ ri.foldl max 0 then .throw .invalidArgument
  else .ok { t with audio := t.audio ++ [⟨s.id, si, r.id, ri⟩] }

/-- One connection call (`composite_component_implementation.cpp:164-226,258-309`). `audioConnection()` with names does
not look at the channel lists. -/
def exec (site : Site) : Stmt → Tables → Outcome Tables
  | .audio sc sp rc rp, t =>
    match site.findAudio sc sp, site.findAudio rc rp with
    | some s, some r =>
      if s.width ≠ r.width then .throw .invalidArgument
      else connectLists s (List.range s.width) r (List.range s.width) t
    | _, _ => .throw .invalidArgument
  | .audioLists sc sp si rc rp ri, t =>
    match site.findAudio sc sp, site.findAudio rc rp with
    | some s, some r => connectLists s si r ri t
    | _, _ => .throw .invalidArgument
  | .audioNamed sc sp si rc rp ri, t =>
    match site.findAudio sc sp, site.findAudio rc rp with
    | some s, some r => .ok { t with audio := t.audio ++ [⟨s.id, si, r.id, ri⟩] }
    | _, _ => .throw .invalidArgument
  | .param sc sp rc rp, t =>
    match site.findParam sc sp, site.findParam rc rp with
    | some s, some r => .ok { t with param := t.param ++ [⟨s.id, r.id⟩] }
    | _, _ => .throw .invalidArgument

/-- A sequence of connection calls. -/
def execAll (site : Site) : List Stmt → Tables → Outcome Tables
  | [], t => .ok t
  | k :: ks, t => do
    let t ← exec site k t
    execAll site ks t

/-- Whether all registrations succeed: `registerChildComponent()` (`composite_component_implementation.cpp:47-56`) and
the registration of ports (`component_implementation.cpp:152-161,234-242`) throw if the name is
taken. -/
def Site.registered (s : Site) : Bool :=
  decide ((s.parts.map Part.name).Nodup) && decide ((s.audio.map Prod.fst).Nodup) && decide ((s.param.map Prod.fst).Nodup)
    && s.parts.all fun p => decide ((p.audio.map Prod.fst).Nodup) && decide ((p.param.map Prod.fst).Nodup)

/-- Construction of a composite. All components are registered first; in the code some are created between connection
calls, but never after one that uses them. -/
def Site.build (s : Site) (calls : List Stmt) : Outcome Comp :=
  if s.registered then do
    let t ← execAll s calls ⟨[], []⟩
    .ok (.composite (s.audio.map Prod.snd) (s.param.map Prod.snd) (s.parts.map Part.comp) t.audio t.param)
  else .throw .invalidArgument

/-- The number of a `TimeFrequencyParameterConfig` (`time_frequency_parameter_config.cpp:35-51`), continuing
`CoreRenderer.PConfig.code`. -/
def timeFrequencyCode (bins channels frames : Nat) : Nat := Nat.pair 3 (Nat.pair bins (Nat.pair channels frames))

end Visr.Wiring
