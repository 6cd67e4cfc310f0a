import Verif.Run

/-!
# `pml::SignalRoutingParameter`

Models `src/libpml/signal_routing_parameter.{hpp,cpp}`. The `std::set< Entry, CompareEntries >` (ordered by the output
index alone) is the list of its entries in iteration order.
-/

namespace Visr.RoutingParameter
open Visr

/-- `cInvalidIndex`, `signal_routing_parameter.hpp:40`. -/
def cInvalidIndex : Nat := 2 ^ 64 - 1

/-- `Entry`, `signal_routing_parameter.hpp:46-51`. -/
structure Entry where
  input : Nat
  output : Nat
  deriving DecidableEq, Repr

/-- `std::set::find` with `CompareEntries` (`signal_routing_parameter.hpp:53-60`): only the output matters. -/
def find (s : List Entry) (output : Nat) : Option Entry := s.find? (fun e => e.output == output)

/-- `std::set::erase` at the element with this output. -/
def erase (s : List Entry) (output : Nat) : List Entry := s.filter (fun e => e.output != output)

/-- `std::set::insert`: an entry with the same output already present is kept. -/
def insert (e : Entry) : List Entry → List Entry
  | [] => [e]
  | x :: l => if e.output < x.output then e :: x :: l else if e.output = x.output then x :: l else x :: insert e l

/-- `addRouting`, `signal_routing_parameter.cpp:48-56`. -/
def addRouting (s : List Entry) (e : Entry) : List Entry :=
  match find s e.output with
  | some _ => insert e (erase s e.output)
  | none => insert e s

/-- `removeEntry( Entry )`, `signal_routing_parameter.cpp:58-70`. -/
def removeEntry (s : List Entry) (e : Entry) : List Entry × Bool :=
  match find s e.output with
  | some x => if x.input = e.input then (erase s e.output, true) else (s, false)
  | none => (s, false)

/-- `removeEntry( IndexType )`, `signal_routing_parameter.cpp:72-82`. -/
def removeOutput (s : List Entry) (output : Nat) : List Entry × Bool :=
  match find s output with
  | some _ => (erase s output, true)
  | none => (s, false)

/-- `getInput`, `signal_routing_parameter.hpp:132-136`. -/
def getInput (s : List Entry) (output : Nat) : Nat :=
  match find s output with
  | some e => e.input
  | none => cInvalidIndex

/-- `getEntry`, `signal_routing_parameter.hpp:124-130`. -/
def getEntry (s : List Entry) (output : Nat) : Entry :=
  match find s output with
  | some e => e
  | none => ⟨cInvalidIndex, cInvalidIndex⟩

/-- `getOutput`, `signal_routing_parameter.cpp:86-93`. -/
def getOutput (s : List Entry) (input : Nat) : Nat :=
  match s.find? (fun e => e.input == input) with
  | some e => e.output
  | none => cInvalidIndex

/-- Constructor from an initialiser list, `signal_routing_parameter.cpp:20-33`. -/
def construct : List Entry → List Entry → Outcome (List Entry)
  | s, [] => .ok s
  | s, e :: es =>
    match find s e.output with
    | some _ => .throw .invalidArgument
    | none => construct (insert e s) es

/-- The mutating operations of the interface. -/
inductive Op where
  | add (input output : Nat)
  | removeEntry (input output : Nat)
  | removeOutput (output : Nat)
  | clear
  deriving DecidableEq, Repr

/-- One operation; the `bool` results are outputs (`true` for operations without result). -/
def step (s : List Entry) : Op → List Entry × Bool
  | .add i o => (addRouting s ⟨i, o⟩, true)
  | .removeEntry i o => removeEntry s ⟨i, o⟩
  | .removeOutput o => removeOutput s o
  | .clear => ([], true)

/-! ## Parsing

`parse`, `signal_routing_parameter.cpp:97-137`: the boost spirit grammar `(uint_ >> '=' >> uint_) % (',' | blank)` with
the skipper `ascii::space`. Every primitive parser first skips white space (pre-skip), hence the alternative `blank` can
never match: a blank at that place has already been skipped. `uint_` accepts at least one digit and fails if the
number exceeds `unsigned int` (32 bit). The list operator restores the iterator if separator or element fail.
The semantic actions of a failed last element leave the accumulated routings unchanged, because only the second number
of an element adds a routing. -/

/-- `ascii::space`: blank, tab, newline, vertical tab, form feed, carriage return. -/
def isSpace (c : Char) : Bool := c == ' ' || (9 ≤ c.toNat && c.toNat ≤ 13)

/-- The skipper. -/
def skip (s : List Char) : List Char := s.dropWhile isSpace

def isDigit (c : Char) : Bool := 48 ≤ c.toNat && c.toNat ≤ 57

/-- The digits of a number, with overflow check against `unsigned int`. -/
def digits (acc : Nat) : List Char → Option (Nat × List Char)
  | [] => some (acc, [])
  | c :: cs =>
    if isDigit c then
      let v := acc * 10 + (c.toNat - 48)
      if v < 2 ^ 32 then digits v cs else none
    else some (acc, c :: cs)

/-- `qi::uint_` with pre-skip. -/
def uint (s : List Char) : Option (Nat × List Char) :=
  match skip s with
  | [] => none
  | c :: cs => if isDigit c then digits 0 (c :: cs) else none

/-- A literal character with pre-skip. -/
def lit (ch : Char) (s : List Char) : Option (List Char) :=
  match skip s with
  | [] => none
  | c :: cs => if c = ch then some cs else none

/-- `qi::blank` with pre-skip. -/
def blank (s : List Char) : Option (List Char) :=
  match skip s with
  | [] => none
  | c :: cs => if c = ' ' ∨ c = '\t' then some cs else none

/-- One element `in=out`. -/
def element (s : List Char) : Option (Entry × List Char) :=
  match uint s with
  | none => none
  | some (i, s1) =>
    match lit '=' s1 with
    | none => none
    | some s2 =>
      match uint s2 with
      | none => none
      | some (o, s3) => some (⟨i, o⟩, s3)

/-- The separator `',' | blank`. -/
def separator (s : List Char) : Option (List Char) :=
  match lit ',' s with
  | some s' => some s'
  | none => blank s

/-- The rest of the list after the first element: repeat separator and element as long as both succeed. The fuel is the
number of characters left (each repetition consumes at least one). -/
def moreElements : Nat → List Entry → List Char → List Entry × List Char
  | 0, acc, s => (acc, s)
  | fuel + 1, acc, s =>
    match separator s with
    | none => (acc, s)
    | some s1 =>
      match element s1 with
      | none => (acc, s)
      | some (e, s2) => moreElements fuel (addRouting acc e) s2

/-- `parse`: on success the routings are replaced and the result is `true`; otherwise nothing changes. -/
def parse (s : List Entry) (encoded : List Char) : List Entry × Bool :=
  match element encoded with
  | none => (s, false)
  | some (e, s1) =>
    let r := moreElements s1.length (addRouting [] e) s1
    -- phrase_parse skips trailing white space (post-skip)
    if skip r.2 = [] then (r.1, true) else (s, false)

end Visr.RoutingParameter
