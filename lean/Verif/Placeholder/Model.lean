import Verif.Outcome
import Mathlib.Tactic.TypeStar

/-!
# Placeholder resolution

Models `AudioConnectionMap::resolvePlaceholders` (`src/librrl/audio_connection_map.cpp`) and
`rrl::resolvePlaceholders( ParameterConnectionMap )` (`src/librrl/parameter_connection_map.cpp`).

A connection map is a `std::multimap`; it is modelled by the list of its entries in iteration order. The predicate
`isPlaceholderPort` (`port_utilities.cpp:20-33`: port of a composite that is not the top-level component) is a parameter
`ph` here; it is computed from the component tree in `Verif.Flow`.
-/

namespace Visr.Placeholder
open Visr

variable {X : Type*} [DecidableEq X]

/-- `findReceiveChannel()` (`audio_connection_map.cpp:167-171`): the sender of the first connection to the channel `x`.
Connections are pairs (sender, receiver). -/
def findReceiveChannel (conns : List (X × X)) (x : X) : Option X := (conns.find? fun k => k.2 = x).map Prod.fst

/-- The loop `for(;;)` in `resolvePlaceholders` (`audio_connection_map.cpp:193-221`). `cur` is `findIt->first`, `trace`
is `connectionTrace` (last element first). The first argument bounds the number of iterations; the result `ub` for 0
stands for more iterations than that (shown not to happen). -/
def chase (ph : X → Bool) (conns : List (X × X)) : Nat → List X → X → Outcome X
  | 0, _, _ => .ub
  | n + 1, trace, cur =>
    if ¬ ph cur then .ok cur
    else match findReceiveChannel conns cur with
      | none => .throw .logicError
      | some nxt => if nxt ∈ cur :: trace then .throw .invalidArgument else chase ph conns n (cur :: trace) nxt

/-- The body of the loop over the connections (`audio_connection_map.cpp:176-223`): the connection to be inserted. -/
def resolveOne (ph : X → Bool) (conns : List (X × X)) (k : X × X) : Outcome (Option (X × X)) :=
  if ph k.2 then .ok none
  else if ¬ ph k.1 then .ok (some k)
  else match findReceiveChannel conns k.1 with
    | none => .throw .invalidArgument
    | some cur =>
      match chase ph conns (conns.length + 1) [k.1] cur with
      | .ok s => .ok (some (s, k.2))
      | .throw e => .throw e
      | .ub => .ub

/-- The loop over the connections. `resolvedTable` is a multimap; its entries are listed in the order of insertion. -/
def resolveLoop (one : X × X → Outcome (Option (X × X))) : List (X × X) → Outcome (List (X × X))
  | [] => .ok []
  | k :: ks =>
    match one k with
    | .throw e => .throw e
    | .ub => .ub
    | .ok r =>
      match resolveLoop one ks with
      | .ok rs => .ok (r.toList ++ rs)
      | .throw e => .throw e
      | .ub => .ub

/-- `AudioConnectionMap::resolvePlaceholders()` (`audio_connection_map.cpp:173-226`). -/
def resolveAudio (ph : X → Bool) (conns : List (X × X)) : Outcome (List (X × X)) :=
  resolveLoop (resolveOne ph conns) conns

/-- `std::multimap::find` on the parameter connection map, whose entries are pairs (receiver, sender): the sender of some
entry with the given receiver, taken to be the first one (the standard leaves open which one). -/
def findParam (conns : List (X × X)) (x : X) : Option X := (conns.find? fun k => k.1 = x).map Prod.snd

/-- The loop `for(;;)` in the resolution of parameter connections (`parameter_connection_map.cpp:114-131`). `found` is
the sender of `findIt` or `none` for the end iterator, `count` is `recursionCount`. The first argument bounds the number
of iterations; `ub` stands for more iterations (shown not to happen). -/
def chaseParam (ph : X → Bool) (conns : List (X × X)) : Nat → Nat → Option X → Outcome X
  | 0, _, _ => .ub
  | n + 1, count, found =>
    match found with
    | none => .throw .invalidArgument
    | some cur =>
      if ¬ ph cur then .ok cur
      else if conns.length ≤ count + 1 then .throw .runtimeError
      else chaseParam ph conns n (count + 1) (findParam conns cur)

/-- The body of the loop over the parameter connections (`parameter_connection_map.cpp:97-133`). Entries are pairs
(receiver, sender). -/
def resolveOneParam (ph : X → Bool) (conns : List (X × X)) (k : X × X) : Outcome (Option (X × X)) :=
  if ph k.1 then .ok none
  else if ¬ ph k.2 then .ok (some k)
  else
    match chaseParam ph conns (conns.length + 1) 1 (findParam conns k.2) with
    | .ok s => .ok (some (k.1, s))
    | .throw e => .throw e
    | .ub => .ub

/-- `resolvePlaceholders( ParameterConnectionMap const & )` (`parameter_connection_map.cpp:93-136`). -/
def resolveParam (ph : X → Bool) (conns : List (X × X)) : Outcome (List (X × X)) :=
  resolveLoop (resolveOneParam ph conns) conns

end Visr.Placeholder
