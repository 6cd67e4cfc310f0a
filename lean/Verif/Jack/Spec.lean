import Verif.Jack.Model
import Mathlib.Data.List.Forall2

/-!
# What users of the JACK interface rely on

The ports described by a configuration, and the connections between ports.
-/

namespace Visr.Jack
open Visr

variable {α F U σ : Type}

/-- The sequence of numbers a text stands for (the notation is the subject of C45). -/
def Denotes (text : Name) (l : List Int) : Prop := ChannelList.parse text = .ok l

/-- The decimal digits of a number. -/
def decimal (n : Int) : Name := ChannelList.printInt n

/-- The port names given by one element of the configuration, for `n` ports: the base name with
each of the listed numbers, or with the numbers from 0 if there is no list or no base name. -/
inductive EntryNames (n : Nat) (defaultBase : Name) (e : PortEntry) : List Name → Prop
  | listed (base text : Name) (l : List Int) : e.basename = some base → e.indices = some text →
      Denotes text l → EntryNames n defaultBase e (l.map fun k => base ++ decimal k)
  | all : e.basename = none ∨ e.indices = none →
      EntryNames n defaultBase e ((List.range n).map fun k : Nat => e.basename.getD defaultBase ++ decimal k)

/-- The full names of the external ports given by an `externalport` node, for `n` ports: the
listed numbers, or the numbers from 1. -/
inductive ExtNames (n : Nat) (defaultBase : Name) (x : Ext) : List Name → Prop
  | listed (text : Name) (l : List Int) : x.indices = some text → Denotes text l →
      ExtNames n defaultBase x
        (l.map fun k => x.client.getD "system".toList ++ ":".toList ++ (x.portname.getD defaultBase ++ decimal k))
  | all : x.indices = none →
      ExtNames n defaultBase x ((List.range n).map fun k : Nat =>
        x.client.getD "system".toList ++ ":".toList ++ (x.portname.getD defaultBase ++ decimal (k + 1 : Nat)))

/-- The elements of one direction of the configuration: without a `port` node one element
without any settings. -/
def elements (d : Option Dir) : List PortEntry := ((d.bind fun x => x.ports).getD [{}])

/-- The names of the ports of one direction are those of its elements, one after another. -/
def DescribedNames (d : Option Dir) (n : Nat) (defaultBase : Name) (names : List Name) : Prop :=
  ∃ parts, List.Forall₂ (EntryNames n defaultBase) (elements d) parts ∧ names = parts.flatten ∧ names.length = n

/-- The external ports of one direction are those of its elements, one after another. -/
def DescribedExt (d : Option Dir) (n : Nat) (defaultBase : Name) (names : List Name) : Prop :=
  ∃ parts, List.Forall₂ (fun e => ExtNames n defaultBase (e.ext.getD {})) (elements d) parts ∧
    names = parts.flatten ∧ names.length = n

/-- Each element but the first has its own `externalport` node. -/
def OwnExt (d : Option Dir) : Prop := ∀ e ∈ (elements d).tail, e.ext ≠ none

/-- Automatic connection is requested for one direction. -/
def Auto (d : Option Dir) (auto : Bool) : Prop :=
  match d with
  | none => auto = true
  | some d => d.autoconnect = .val true ∨ (d.autoconnect ≠ .val false ∧ auto = true)

/-- The function and its user data registered last and not unregistered since then. -/
def Registered (h : List (Op α F U)) (f : F) (u : U) : Prop :=
  ∃ before after, h = before ++ .register f u :: after ∧
    ∀ op ∈ after, op ≠ .unregister f ∧ ∀ f' u', op ≠ .register f' u'

/-- No port of another client looks like a port of this client. -/
def Foreign (client : Name) (srv : Server) : Prop :=
  ∀ n, client ++ ":".toList ++ n ∉ srv.sources ∧ client ++ ":".toList ++ n ∉ srv.sinks

/-- The server has exactly the ports of the interface: the capture ports are inputs, the
playback ports outputs. -/
def HasPorts (srv : Server) (cap play : List Name) : Prop :=
  srv.ports.map (fun p => (p.name, p.isInput)) = cap.map (·, true) ++ play.map (·, false)

/-- No colon occurs in the names. -/
def Plain (names : List Name) : Prop := ∀ n ∈ names, ':' ∉ n

/-- The interface is started: the last `start()` succeeded and `stop()` has not been called
since then. -/
def Started [DecidableEq F] (cfg : Config) (proc : Proc α F U σ) (s0 : State F U σ) (h : List (Op α F U)) : Prop :=
  ∃ before a acc after, h = before ++ .start a acc :: after ∧
    (step cfg proc (final (step cfg proc) s0 before) (.start a acc)).2 = .done ∧
    ∀ op ∈ after, (∀ a acc, op ≠ .start a acc) ∧ ∀ d, op ≠ .stop d

/-- An output port of this name exists. -/
def IsSource (client : Name) (srv : Server) (n : Name) : Prop :=
  n ∈ srv.sources ∨ ∃ p ∈ srv.ports, p.isInput = false ∧ n = client ++ ":".toList ++ p.name

/-- An input port of this name exists. -/
def IsSink (client : Name) (srv : Server) (n : Name) : Prop :=
  n ∈ srv.sinks ∨ ∃ p ∈ srv.ports, p.isInput = true ∧ n = client ++ ":".toList ++ p.name

/-- The capture ports of a server, in their order. -/
def inputs (srv : Server) : List Port := srv.ports.filter fun p => p.isInput

/-- The playback ports of a server, in their order. -/
def outputs (srv : Server) : List Port := srv.ports.filter fun p => !p.isInput

/-- What a block does: the function is called once with the samples of the capture ports in
their order, the samples it gives go to the playback ports in their order, and a failure is
reported to the server. -/
def Exchanged (proc : Proc α F U σ) (f : F) (u : U) (buf : Nat → List α) (s s' : State F U σ) (r : Result α) : Prop :=
  s' = { s with world := (proc f u s.world ((inputs s.srv).map fun p => buf p.handle)).1 } ∧
    match (proc f u s.world ((inputs s.srv).map fun p => buf p.handle)).2 with
    | (out, none) => r = .ret 0 (some (((outputs s.srv).map (·.handle)).zip out))
    | (out, some _) => r = .ret 1 (some (((outputs s.srv).map (·.handle)).zip out))

end Visr.Jack
