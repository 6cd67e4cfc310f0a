import Verif.Outcome

/-!
# Component trees and their connection check

Models the parts of `src/libvisr/impl` that describe a signal flow (components, ports, connection tables),
`PortLookup` (`src/librrl/port_utilities.cpp`), `AudioConnectionMap::fill` (`src/librrl/audio_connection_map.cpp`) and the
connection check (`src/librrl/integrity_checking.cpp`).

Ports are identified by their address, a natural number. Tables that are `std::set`, `std::map` or `std::multimap` in the
code are lists in some order here; no result below depends on the order. Messages are not modelled.
-/

namespace Visr.Flow
open Visr

/-- An audio port (`impl::AudioPortBaseImplementation`). -/
structure APort where
  id : Nat
  input : Bool
  width : Nat
  sampleType : Nat
  deriving DecidableEq

/-- A parameter port (`impl::ParameterPortBaseImplementation`): protocol type, parameter type, configuration. -/
structure PPort where
  id : Nat
  input : Bool
  protocol : Nat
  type : Nat
  config : Nat
  deriving DecidableEq

/-- An audio connection of a composite (`impl::AudioConnection`). -/
structure AConn where
  sender : Nat
  sendIndices : List Nat
  receiver : Nat
  receiveIndices : List Nat

/-- A parameter connection of a composite (`impl::ParameterConnection`). -/
structure PConn where
  sender : Nat
  receiver : Nat

/-- A component: atomic, or composite with its contained components and connection tables. -/
inductive Comp where
  | atom (audio : List APort) (param : List PPort)
  | composite (audio : List APort) (param : List PPort) (children : List Comp) (aconns : List AConn) (pconns : List PConn)

/-- `audioPorts()`. -/
def Comp.audio : Comp → List APort
  | .atom a _ => a
  | .composite a _ _ _ _ => a

/-- `parameterPorts()`. -/
def Comp.param : Comp → List PPort
  | .atom _ p => p
  | .composite _ p _ _ _ => p

/-- `allNonPlaceholderSendPorts()` of a non-recursive `PortLookup` (`port_utilities.cpp:89-160`): the inputs of the
composite itself and the outputs of the contained components. -/
def sendPorts {P : Type} (input : P → Bool) (own : List P) (children : List (List P)) : List P :=
  (children.flatMap fun c => c.filter fun p => !input p) ++ own.filter fun p => input p

/-- `allNonPlaceholderReceivePorts()` of a non-recursive `PortLookup`: the outputs of the composite itself and the inputs
of the contained components. -/
def receivePorts {P : Type} (input : P → Bool) (own : List P) (children : List (List P)) : List P :=
  (children.flatMap fun c => c.filter fun p => input p) ++ own.filter fun p => !input p

/-- An audio channel: port and index (`AudioChannel`, `audio_connection_map.hpp:28-56`). -/
abbrev Chan := Nat × Nat

/-- The loop over the connections of one composite in `AudioConnectionMap::fillRecursive`
(`audio_connection_map.cpp:95-148`): the channel connections (sender, receiver) that are inserted and the result. -/
def fillLocal (sends receives : List APort) : List AConn → List (Chan × Chan) × Bool
  | [] => ([], true)
  | c :: cs =>
    let rest := fillLocal sends receives cs
    match sends.find? fun p => p.id = c.sender with
    | none => (rest.1, false)
    | some s =>
      match receives.find? fun p => p.id = c.receiver with
      | none => (rest.1, false)
      | some r =>
        if c.receiveIndices.length ≠ c.sendIndices.length then (rest.1, false)
        else if 0 < c.receiveIndices.length then
          if s.width ≤ c.sendIndices.foldl max 0 then (rest.1, false)
          else if r.width ≤ c.receiveIndices.foldl max 0 then (rest.1, false)
          else (List.zip (c.sendIndices.map fun i => (c.sender, i)) (c.receiveIndices.map fun i => (c.receiver, i))
                  ++ rest.1, rest.2)
        else rest

/-- Ports used as send ports inside a composite. -/
def aSends (own : List APort) (children : List Comp) : List APort := sendPorts APort.input own (children.map Comp.audio)

/-- Ports used as receive ports inside a composite. -/
def aReceives (own : List APort) (children : List Comp) : List APort :=
  receivePorts APort.input own (children.map Comp.audio)

mutual
/-- `AudioConnectionMap::fillRecursive` with `recursive = true` (`audio_connection_map.cpp:81-160`). After a failure no
further contained components are visited. -/
def fillRecursive : Comp → List (Chan × Chan) × Bool
  | .atom _ _ => ([], true)
  | .composite own _ children aconns _ =>
    let l := fillLocal (aSends own children) (aReceives own children) aconns
    let r := fillChildren children l.2
    (l.1 ++ r.1, r.2)
/-- The loop over the contained components (`audio_connection_map.cpp:150-157`). -/
def fillChildren : List Comp → Bool → List (Chan × Chan) × Bool
  | [], res => ([], res)
  | c :: cs, res =>
    if res then
      let l := fillRecursive c
      let r := fillChildren cs l.2
      (l.1 ++ r.1, r.2)
    else fillChildren cs false
end

/-- The keys of a table created by `fillTable()` (`integrity_checking.cpp:102-114`). -/
def channels (ports : List APort) : List Chan := ports.flatMap fun p => (List.range p.width).map fun i => (p.id, i)

/-- The counts of the two tables `sendChannelTable` and `receiveChannelTable`, and the result so far. -/
structure Counts where
  send : Chan → Nat
  recv : Chan → Nat
  ok : Bool

/-- Increment a count. -/
def bump (f : Chan → Nat) (x : Chan) : Chan → Nat := fun y => if y = x then f y + 1 else f y

/-- The loop over the connections (`integrity_checking.cpp:130-156`). -/
def countLoop (sends receives : List Chan) : List (Chan × Chan) → Counts → Counts
  | [], c => c
  | k :: ks, c =>
    if k.1 ∉ sends then countLoop sends receives ks { c with ok := false }
    else if k.2 ∉ receives then countLoop sends receives ks { c with ok := false }
    else if 0 < c.recv k.2 then countLoop sends receives ks ⟨bump c.send k.1, bump c.recv k.2, false⟩
    else countLoop sends receives ks ⟨bump c.send k.1, bump c.recv k.2, c.ok⟩

/-- `checkAudioConnectionsLocal()` (`integrity_checking.cpp:116-192`). The comparison of sample types compares a port with
itself, so it never fails. -/
def checkAudioLocal (sends receives : List APort) (conns : List AConn) : Bool :=
  let f := fillLocal sends receives conns
  if ¬ f.2 then false
  else
    let c := countLoop (channels sends) (channels receives) f.1 ⟨fun _ => 0, fun _ => 0, true⟩
    c.ok && ((channels receives).all fun r => c.recv r ≠ 0 ∧ ¬ 1 < c.recv r) &&
      ((channels sends).all fun s => c.send s ≠ 0)

/-- `checkParameterPortCompatibility()` (`port_utilities.cpp:50-95`). `cmp` is `ParameterConfigBase::compare`, `none` if
it throws. -/
def compatible (cmp : Nat → Nat → Option Bool) (s r : PPort) : Bool :=
  let res := decide (s.protocol = r.protocol)
  if s.type ≠ r.type then false
  else match cmp s.config r.config with
    | none => false
    | some false => false
    | some true => res

/-- Result and tables of used ports in `checkParameterConnectionsLocal`. -/
structure Used where
  send : List Nat
  recv : List Nat
  ok : Bool

/-- The loop over the parameter connections (`integrity_checking.cpp:203-231`). -/
def usedLoop (cmp : Nat → Nat → Option Bool) (sends receives : List PPort) : List PConn → Used → Used
  | [], u => u
  | k :: ks, u =>
    match sends.find? fun p => p.id = k.sender with
    | none => usedLoop cmp sends receives ks { u with ok := false }
    | some s =>
      match receives.find? fun p => p.id = k.receiver with
      | none => usedLoop cmp sends receives ks { u with send := k.sender :: u.send, ok := false }
      | some r => usedLoop cmp sends receives ks
          ⟨k.sender :: u.send, k.receiver :: u.recv, u.ok && compatible cmp s r⟩

/-- `checkParameterConnectionsLocal()` (`integrity_checking.cpp:194-277`). The used ports are always a subset of the local
ports, so the set comparisons test whether all local ports are used. -/
def checkParamLocal (cmp : Nat → Nat → Option Bool) (sends receives : List PPort) (conns : List PConn) : Bool :=
  let u := usedLoop cmp sends receives conns ⟨[], [], true⟩
  u.ok && (sends.all fun p => p.id ∈ u.send) && (receives.all fun p => p.id ∈ u.recv)

mutual
/-- `checkAudioConnectionIntegrity()` (`integrity_checking.cpp:53-71`). -/
def checkAudio : Comp → Bool → Bool
  | .atom _ _, _ => true
  | .composite own _ children aconns _, hierarchical =>
    let result := checkAudioLocal (aSends own children) (aReceives own children) aconns
    if hierarchical then checkAudioChildren children result else result
/-- The loop over the contained components (`integrity_checking.cpp:63-68`). -/
def checkAudioChildren : List Comp → Bool → Bool
  | [], res => res
  | c :: cs, res => checkAudioChildren cs (res && checkAudio c true)
end

mutual
/-- `checkParameterConnectionIntegrity()` (`integrity_checking.cpp:73-91`). -/
def checkParam (cmp : Nat → Nat → Option Bool) : Comp → Bool → Bool
  | .atom _ _, _ => true
  | .composite _ own children _ pconns, hierarchical =>
    let result := checkParamLocal cmp (sendPorts PPort.input own (children.map Comp.param))
      (receivePorts PPort.input own (children.map Comp.param)) pconns
    if hierarchical then checkParamChildren cmp children result else result
/-- The loop over the contained components (`integrity_checking.cpp:83-88`). -/
def checkParamChildren (cmp : Nat → Nat → Option Bool) : List Comp → Bool → Bool
  | [], res => res
  | c :: cs, res => checkParamChildren cmp cs (res && checkParam cmp c true)
end

/-- `checkConnectionIntegrity()` (`integrity_checking.cpp:47-51`). -/
def checkConnectionIntegrity (cmp : Nat → Nat → Option Bool) (c : Comp) (hierarchical : Bool) : Bool :=
  checkAudio c hierarchical && checkParam cmp c hierarchical

end Visr.Flow
