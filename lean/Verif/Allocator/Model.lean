import Verif.Run

/-!
# `rbbl::ObjectChannelAllocator`

Models `src/librbbl/object_channel_allocator.{hpp,cpp}`.
-/

namespace Visr.Allocator
open Visr

/-- `objectmodel::Object::cInvalidObjectId = UINT_MAX`, `src/libobjectmodel/object.hpp:61`. -/
def cInvalidObjectId : Nat := 2 ^ 32 - 1

/-- Data members, `object_channel_allocator.hpp:86-110`. `lookup` is the `std::map` from object id to channel as the list
of its entries in key order; `unused` is the stack of unused channels, top (`back()`) first. The scratch member
`mSortedIds` is recomputed in every call and not part of the state. -/
structure State where
  maxChannels : Nat
  lookup : List (Nat × Nat)
  unused : List Nat
  deriving DecidableEq, Repr

/-- Constructor, `object_channel_allocator.cpp:17-27`: element `idx` of the stack is `max - 1 - idx`, so its top is 0. -/
def State.init (numChannels : Nat) : State := ⟨numChannels, [], List.range numChannels⟩

/-- First pass of `setObjects`, `object_channel_allocator.cpp:49-74`: `ids` from `idIt` on, entries from `lookupIt` on;
returns the entries that stay and the new stack. -/
def purge : List Nat → List (Nat × Nat) → List Nat → List (Nat × Nat) × List Nat
  | _, [], u => ([], u)
  | [], e :: l, u => purge [] l (e.2 :: u)
  | i :: is, e :: l, u =>
    if i < e.1 then purge is (e :: l) u
    else if i = e.1 then
      let r := purge is l u
      (e :: r.1, r.2)
    else purge (i :: is) l (e.2 :: u)
termination_by ids l _ => ids.length + l.length

/-- `std::map::insert` of a key that is not present. -/
def insertEntry (e : Nat × Nat) : List (Nat × Nat) → List (Nat × Nat)
  | [] => [e]
  | x :: l => if e.1 < x.1 then e :: x :: l else x :: insertEntry e l

/-- Second pass of `setObjects`, `object_channel_allocator.cpp:76-94`. `rest` are the entries from `lookupIt` on: new
entries are always inserted before `lookupIt`, so that they are never visited by it. A failed insertion (`:85-88`) happens
after the channel has been taken from the stack. -/
def allocate : List Nat → List (Nat × Nat) → List (Nat × Nat) → List Nat → (List (Nat × Nat) × List Nat) × Outcome Unit
  | [], _, m, u => ((m, u), .ok ())
  | i :: is, [], m, u =>
    match u with
    | [] => ((m, u), .throw .runtimeError)
    | c :: u' =>
      if i ∈ m.map Prod.fst then ((m, u'), .throw .logicError)
      else allocate is [] (insertEntry (i, c) m) u'
  | i :: is, e :: r, m, u =>
    if i < e.1 then
      match u with
      | [] => ((m, u), .throw .runtimeError)
      | c :: u' =>
        if i ∈ m.map Prod.fst then ((m, u'), .throw .logicError)
        else allocate is (e :: r) (insertEntry (i, c) m) u'
    else allocate is r m u

/-- `std::sort` on ids (`object_channel_allocator.cpp:43-45`); the result does not depend on the algorithm. -/
def insertSorted (a : Nat) : List Nat → List Nat
  | [] => [a]
  | b :: l => if a ≤ b then a :: b :: l else b :: insertSorted a l

def sortIds : List Nat → List Nat
  | [] => []
  | a :: l => insertSorted a (sortIds l)

/-- `setObjects`, `object_channel_allocator.cpp:35-97`. -/
def setObjects (s : State) (ids : List Nat) : State × Outcome Unit :=
  if ids.length > s.maxChannels then (s, .throw .invalidArgument)
  else
    let sorted := sortIds ids
    let p := purge sorted s.lookup s.unused
    let a := allocate sorted p.1 p.1 p.2
    ({ s with lookup := a.1.1, unused := a.1.2 }, a.2)

/-- `numberUsedChannels`, `object_channel_allocator.cpp:29-33`. -/
def numberUsedChannels (s : State) : Nat := s.lookup.length

/-- `getObjectForChannel`, `object_channel_allocator.cpp:101-109`. -/
def getObjectForChannel (s : State) (channel : Nat) : Nat :=
  match s.lookup.find? (fun e => e.2 == channel) with
  | some e => e.1
  | none => cInvalidObjectId

end Visr.Allocator
