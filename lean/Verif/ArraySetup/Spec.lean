import Verif.ArraySetup.Model
import Mathlib.Data.List.Forall2

/-!
# Specification of array configuration files
-/

namespace Visr.ArraySetup
open Visr

variable {K : Type} [Zero K]

/-- The node describes the output `id` with the gain `g` and the delay `d`: exactly one of the attributes `gain` and `gainDB`
is a number; without a number in `delay` the delay is zero. -/
structure Describes (db : K → K) (n : Node K) (id : Nat) (g d : K) : Prop where
  id : n.id = .val id
  gain : (n.gain = .val g ∧ ∀ x, n.gainDB ≠ .val x) ∨ (∃ x, n.gainDB = .val x ∧ g = db x ∧ ∀ x, n.gain ≠ .val x)
  delay : n.delay = .val d ∨ (d = 0 ∧ ∀ x, n.delay ≠ .val x)

/-- The loudspeakers, then the subwoofers of a file. -/
def outputs (l : List (String × Node K)) : List (Node K) := tagged "speaker" l ++ tagged "subwoofer" l

/-- The contents `l` of a file are a valid configuration of `n` outputs: all nodes are complete, and their numbers are
`1, …, n` in any order. -/
def Valid (db : K → K) (l : List (String × Node K)) (n : Nat) : Prop :=
  ∃ ids : List Nat, List.Forall₂ (fun x i => ∃ g d, Describes db x i g d) (outputs l) ids ∧ ids.Perm (List.range' 1 n)

/-- Any history of calls of `loadXml`, whether they succeed or not. -/
def after (db : K → K) (c : Config K) (fs : List (File K)) : Config K := fs.foldl (fun c f => (c.loadXml db f).1) c

end Visr.ArraySetup
