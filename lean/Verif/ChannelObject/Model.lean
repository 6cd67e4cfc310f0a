import Verif.RoutingParameter.Model

/-!
# Model of `rcl::ChannelObjectRoutingCalculator`

`/repo/src/librcl/channel_object_routing_calculator.{hpp,cpp}`, with the parts of `panning::LoudspeakerArray`
(`/repo/src/libpanning/LoudspeakerArray.{h,cpp}`) and `objectmodel::ChannelObject`
(`/repo/src/libobjectmodel/{object,channel_object}.cpp`) it uses, and `pml::SignalRoutingParameter`
(`Verif.RoutingParameter.Model`).  Messages to `std::cerr` and `status()` are not modelled.
-/

namespace Visr.ChannelObject
open Visr
open Visr.RoutingParameter (Entry addRouting)

/-- The part of `LoudspeakerArray` used here: the map from ids to indices in iteration order (`m_id`) and the number
of regular loudspeakers (LoudspeakerArray.h:195). -/
structure Array where
  ids : List (String × Nat)
  numRegular : Nat

/-- `loudspeakerId( index )` (LoudspeakerArray.cpp:584-596): the first entry of the map with this index. -/
def Array.loudspeakerId (a : Array) (index : Nat) : Outcome String :=
  match a.ids.find? (fun e => e.2 == index) with
  | some e => .ok e.1
  | none => .throw .outOfRange

/-- The lookup table (`std::map`, channel_object_routing_calculator.hpp:87-89). -/
abbrev Lookup := List (String × Nat)

/-- `std::map::find`. -/
def Lookup.find (l : Lookup) (id : String) : Option Nat := (l.find? (fun e => e.1 == id)).map (·.2)

/-- Loop of the constructor over the regular loudspeakers (channel_object_routing_calculator.cpp:37-50), `n` of them
are already done. -/
def buildLookup (a : Array) : Nat → Outcome Lookup
  | 0 => .ok []
  | n + 1 =>
    match buildLookup a n with
    | .ok l =>
      match a.loudspeakerId n with
      | .ok id => if (l.find id).isSome then .throw .invalidArgument else .ok (l ++ [(id, n)])
      | .throw e => .throw e
      | .ub => .ub
    | .throw e => .throw e
    | .ub => .ub

/-- The component: number of object channels, lookup table, the buffers of its output port and its changed flag. -/
structure Calc where
  numChannels : Nat
  lookup : Lookup
  back : List Entry
  front : List Entry
  outChanged : Bool
deriving DecidableEq

/-- Constructor (channel_object_routing_calculator.cpp:24-51). -/
def construct (numChannels : Nat) (a : Array) : Outcome Calc :=
  match buildLookup a a.numRegular with
  | .ok l => .ok ⟨numChannels, l, [], [], false⟩
  | .throw e => .throw e
  | .ub => .ub

/-- An object of the scene: `isChannel` is `type() == ObjectTypeId::ChannelObject`, `channels` are its channel indices
(object.cpp:67-74) and `outputs` its output channel lists (channel_object.cpp:44-51). -/
structure Obj where
  isChannel : Bool
  channels : List Nat
  outputs : List (List String)

/-- One pass through the inner loop for channel `chIdx` (channel_object_routing_calculator.cpp:83-106): the routings and
the exception, if any. -/
def routeChannel (c : Calc) (o : Obj) (routings : List Entry) (chIdx : Nat) : List Entry × Outcome Unit :=
  match o.channels[chIdx]? with
  | none => (routings, .throw .invalidArgument) -- Object::channelIndex()
  | some ch =>
    if ch > c.numChannels then (routings, .ok ())
    else
      match o.outputs[chIdx]? with
      | none => (routings, .throw .outOfRange) -- ChannelObject::outputChannel()
      | some [id] =>
        match c.lookup.find id with
        | some l => (addRouting routings ⟨ch, l⟩, .ok ())
        | none => (routings, .ok ())
      | some _ => (routings, .ok ())

/-- Run a function for all elements of a list, stopping at the first exception. -/
def forEach {α σ : Type} (f : σ → α → σ × Outcome Unit) : List α → σ → σ × Outcome Unit
  | [], s => (s, .ok ())
  | a :: as, s =>
    match f s a with
    | (s', .ok ()) => forEach f as s'
    | r => r

/-- One pass through the outer loop (channel_object_routing_calculator.cpp:71-107). The assertion in line 80 is compiled
only in debug builds; the model is the release build. -/
def routeObject (c : Calc) (routings : List Entry) (o : Obj) : List Entry × Outcome Unit :=
  if !o.isChannel then (routings, .ok ())
  else forEach (routeChannel c o) (List.range o.channels.length) routings

/-- `process( objects, routings )` (channel_object_routing_calculator.cpp:65-108). -/
def processObjects (c : Calc) (objects : List Obj) : List Entry × Outcome Unit := forEach (routeObject c) objects []

/-- `process()` (channel_object_routing_calculator.cpp:54-63): `changed` is the content of the object port if it is
flagged as changed.  The result tells the component, whether the flag of the input was reset, and the outcome. -/
def process (c : Calc) (changed : Option (List Obj)) : Calc × Bool × Outcome Unit :=
  match changed with
  | none => (c, false, .ok ())
  | some objects =>
    match processObjects c objects with
    | (r, .ok ()) => ({ c with back := c.front, front := r, outChanged := true }, true, .ok ())
    | (r, e) => ({ c with back := r }, false, e)

end Visr.ChannelObject
