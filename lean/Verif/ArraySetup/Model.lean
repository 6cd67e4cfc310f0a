import Verif.PTree

/-!
# Array configuration files

Models `pml::ArrayConfiguration` (`src/libpml/array_configuration.hpp`, `src/libpml/array_configuration.cpp`): gain and delay
adjustments of the loudspeakers and subwoofers of a reproduction system, read from XML files. XML syntax and the text of
numbers are not modelled (`Verif/PTree.lean`). Gains and delays are elements of a type `K`; `db` is the conversion of
`gainDB` attributes, `10^(x/20)`.
-/

namespace Visr.ArraySetup
open Visr

/-- The attributes of a `speaker` or `subwoofer` node (`array_configuration.cpp:54-62`). -/
structure Node (K : Type) where
  id : Entry Nat
  gain : Entry K
  gainDB : Entry K
  delay : Entry K

/-- What is found at a path: no file (or a directory), no XML, no `arrayconfiguration` node, or the child nodes with their
tags (`array_configuration.cpp:34-47`). -/
inductive File (K : Type) where
  | missing
  | noXml
  | noRoot
  | nodes (l : List (String × Node K))

/-- `ArrayConfiguration::Speaker` (`array_configuration.hpp:31-41`). -/
structure Speaker (K : Type) where
  id : Nat
  gain : K
  delay : K

/-- Members (`array_configuration.hpp:107-109`); the set is a list ordered by `id`. -/
structure Config (K : Type) where
  array : List (Speaker K)
  subwoofers : List Nat

/-- The constructor (`array_configuration.cpp:20-22`). -/
def Config.init {K : Type} : Config K := ⟨[], []⟩

/-- `std::set::insert` with `CompareSpeakers` (`array_configuration.hpp:43-51`); `none` if there is an equivalent element. -/
def insert {K : Type} (s : Speaker K) : List (Speaker K) → Option (List (Speaker K))
  | [] => some [s]
  | x :: xs => if s.id < x.id then some (s :: x :: xs) else if x.id < s.id then (insert s xs).map (x :: ·) else none

/-- The attributes of a node as a `Speaker` (`array_configuration.cpp:54-64`, `78-88`). -/
def readNode {K : Type} [Zero K] (db : K → K) (n : Node K) : Outcome (Speaker K) :=
  match n.id.get with
  | .ub => .ub
  | .throw e => .throw e
  | .ok id =>
    match n.gain.get?, n.gainDB.get? with
    | some g, none => .ok ⟨id, g, n.delay.getD 0⟩
    | none, some d => .ok ⟨id, db d, n.delay.getD 0⟩
    | _, _ => .throw .invalidArgument

/-- The loop over the nodes of one tag (`array_configuration.cpp:50-70`, `74-95`). -/
def loadNodes {K : Type} [Zero K] (db : K → K) (sub : Bool) : List (Node K) → Config K → Config K × Outcome Unit
  | [], c => (c, .ok ())
  | n :: ns, c =>
    match readNode db n with
    | .ub => (c, .ub)
    | .throw e => (c, .throw e)
    | .ok s =>
      match insert s c.array with
      | none => (c, .throw .invalidArgument)
      | some a => loadNodes db sub ns ⟨a, if sub then c.subwoofers ++ [s.id] else c.subwoofers⟩

/-- `std::adjacent_find` with the lambda (`array_configuration.cpp:104-105`): whether there is a gap. -/
def gap {K : Type} : List (Speaker K) → Bool
  | x :: y :: r => x.id + 1 ≠ y.id || gap (y :: r)
  | _ => false

/-- The check of the whole array (`array_configuration.cpp:98-109`). -/
def checkArray {K : Type} (a : List (Speaker K)) : Outcome Unit :=
  match a with
  | [] => .ok ()
  | x :: _ => if x.id ≠ 1 then .throw .invalidArgument else if gap a then .throw .invalidArgument else .ok ()

/-- The nodes with a tag, `ptree::equal_range()`, in the order of the file. -/
def tagged {K : Type} (tag : String) (l : List (String × Node K)) : List (Node K) :=
  (l.filter fun x => x.1 = tag).map Prod.snd

/-- `ArrayConfiguration::loadXml()` (`array_configuration.cpp:29-110`): the object afterwards, and the outcome. -/
def Config.loadXml {K : Type} [Zero K] (db : K → K) (c : Config K) (f : File K) : Config K × Outcome Unit :=
  match f with
  | .missing => (c, .throw .invalidArgument)
  | .noXml => (c, .throw .runtimeError)
  | .noRoot => (c, .throw .runtimeError)
  | .nodes l =>
    match loadNodes db false (tagged "speaker" l) c with
    | (c1, .ok _) =>
      match loadNodes db true (tagged "subwoofer" l) c1 with
      | (c2, .ok _) => (c2, checkArray c2.array)
      | (c2, .throw e) => (c2, .throw e)
      | (c2, .ub) => (c2, .ub)
    | (c1, .throw e) => (c1, .throw e)
    | (c1, .ub) => (c1, .ub)

/-- `numberOfOutputs()` (`array_configuration.hpp:63`). -/
def Config.numberOfOutputs {K : Type} (c : Config K) : Nat := c.array.length

/-- `numberOfLoudspeakers()` (`array_configuration.hpp:65`), a difference of unsigned 64 bit numbers. -/
def Config.numberOfLoudspeakers {K : Type} (c : Config K) : Nat := (c.array.length + 2 ^ 64 - c.subwoofers.length) % 2 ^ 64

/-- `numberOfSubwoofers()` (`array_configuration.hpp:67`). -/
def Config.numberOfSubwoofers {K : Type} (c : Config K) : Nat := c.subwoofers.length

/-- `getGains()` (`array_configuration.hpp:78-90`) for a vector of `n` elements. -/
def Config.getGains {K : Type} (c : Config K) (n : Nat) : Outcome (List K) :=
  if n ≠ c.numberOfOutputs then .throw .invalidArgument else .ok (c.array.map Speaker.gain)

/-- `getDelays()` (`array_configuration.hpp:92-104`) for a vector of `n` elements. -/
def Config.getDelays {K : Type} (c : Config K) (n : Nat) : Outcome (List K) :=
  if n ≠ c.numberOfOutputs then .throw .invalidArgument else .ok (c.array.map Speaker.delay)

end Visr.ArraySetup
