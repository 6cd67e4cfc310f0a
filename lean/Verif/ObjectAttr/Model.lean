import Mathlib.Order.Defs.LinearOrder

/-!
# Attributes of audio objects

Models the classes of audio objects in `/repo/src/libobjectmodel`: `object.cpp`, `object.hpp`, `point_source.cpp`,
`point_source.hpp`, `plane_wave.cpp`, `plane_wave.hpp`, `diffuse_source.cpp`, `point_source_with_diffuseness.cpp`,
`point_source_extent.cpp`, `hoa_source.cpp` and `channel_object.cpp`, and their Python bindings
`/repo/src/python/objectmodel/object.cpp` and `/repo/src/python/objectmodel/point_source.cpp`.

Floating point values are elements of a type `K`; NaN is not modelled. A member that no constructor initialises is an
`Option`, where `none` is its indeterminate value. The model has the members of all classes in one record; a program can
only call the functions of the class of an object, what the model does for others is not used. The equaliser settings
and the reverberation part of `PointSourceWithReverb` are not modelled here.
-/

namespace Visr.ObjectAttr

/-- `ObjectTypeId` (`object_type.hpp:27-40`). `ExtendedSource` has no class. -/
inductive Kind where
  | pointSource
  | planeWave
  | diffuseSource
  | pointSourceWithDiffuseness
  | pointSourceWithReverb
  | pointSourceExtent
  | hoaSource
  | channelObject
  deriving DecidableEq

/-- `cInvalidChannelIndex` (`object.hpp:69`): `UINT_MAX`. -/
def invalidChannel : Nat := 2 ^ 32 - 1

/-- The members: of `Object` (`object.hpp:138-148`), `PointSource` (`point_source.hpp:71-87`), `PlaneWave`
(`plane_wave.hpp:59-63`), `PointSourceWithDiffuseness`, `PointSourceExtent`, `HoaSource` (`hoa_source.hpp:40`) and
`ChannelObject` (`channel_object.hpp:94-96`). -/
structure Obj (K : Type) where
  kind : Kind
  id : Nat
  group : Nat
  level : Option K
  priority : Option Nat
  channels : List Nat
  x : K
  y : K
  z : K
  lock : K
  diffuseness : K
  width : K
  height : K
  depth : K
  azimuth : Option K
  elevation : Option K
  refDist : Option K
  order : Nat
  outputs : List (List String)
  channelDiffuseness : K

/-- Attributes with floating point values. -/
inductive NumAttr where
  | level | x | y | z | lock | diffuseness | width | height | depth
  | azimuth | elevation | refDist | channelDiffuseness
  deriving DecidableEq

/-- Attributes with integer values. -/
inductive IntAttr where
  | group | priority | order
  deriving DecidableEq

/-- Exceptions. -/
inductive Err where
  | invalidArgument
  | outOfRange
  deriving DecidableEq

section
variable {K : Type}

/-- The constructors: `Object` (`object.cpp:29-33`, neither level nor priority are initialised), `PointSource`
(`point_source.cpp:12-19`), `PlaneWave` (`plane_wave.cpp:10-13`, nothing is initialised), `PointSourceWithDiffuseness`
(`point_source_with_diffuseness.cpp:10-14`), `PointSourceExtent` (`point_source_extent.cpp:10-16`), `HoaSource`
(`hoa_source.cpp:10-14`), `ChannelObject` (`channel_object.cpp:13-17`). -/
def new [Zero K] (kind : Kind) (id : Nat) : Obj K where
  kind := kind
  id := id
  group := 0
  level := none
  priority := none
  channels := []
  x := 0
  y := 0
  z := 0
  lock := 0
  diffuseness := 0
  width := 0
  height := 0
  depth := 0
  azimuth := none
  elevation := none
  refDist := none
  order := 0
  outputs := []
  channelDiffuseness := 0

/-- The setters: `object.cpp:57-60`, `point_source.cpp:35-48`, `point_source.hpp:55`,
`point_source_with_diffuseness.cpp:30-33`, `point_source_extent.cpp:32-45`, `plane_wave.cpp:29-42`,
`channel_object.cpp:98-101`. -/
def setNum (o : Obj K) (a : NumAttr) (v : K) : Obj K :=
  match a with
  | .level => { o with level := some v }
  | .x => { o with x := v }
  | .y => { o with y := v }
  | .z => { o with z := v }
  | .lock => { o with lock := v }
  | .diffuseness => { o with diffuseness := v }
  | .width => { o with width := v }
  | .height => { o with height := v }
  | .depth => { o with depth := v }
  | .azimuth => { o with azimuth := some v }
  | .elevation => { o with elevation := some v }
  | .refDist => { o with refDist := some v }
  | .channelDiffuseness => { o with channelDiffuseness := v }

/-- The getters: `object.cpp:52-55`, `point_source.hpp:32-36`, `point_source.cpp:55-58`, `plane_wave.hpp:45-53`,
`channel_object.cpp:93-96`, and those in the headers of the other classes. `none`: an indeterminate value is read. -/
def getNum (o : Obj K) (a : NumAttr) : Option K :=
  match a with
  | .level => o.level
  | .x => some o.x
  | .y => some o.y
  | .z => some o.z
  | .lock => some o.lock
  | .diffuseness => some o.diffuseness
  | .width => some o.width
  | .height => some o.height
  | .depth => some o.depth
  | .azimuth => o.azimuth
  | .elevation => o.elevation
  | .refDist => o.refDist
  | .channelDiffuseness => some o.channelDiffuseness

/-- `setGroupId`, `setPriority` (`object.cpp:37-50`), `setOrder` (`hoa_source.cpp:30-33`). -/
def setInt (o : Obj K) (a : IntAttr) (n : Nat) : Obj K :=
  match a with
  | .group => { o with group := n }
  | .priority => { o with priority := some n }
  | .order => { o with order := n }

/-- `groupId` (`object.hpp:81`), `priority` (`object.cpp:42-45`), `order` (`hoa_source.hpp:33`). -/
def getInt (o : Obj K) (a : IntAttr) : Option Nat :=
  match a with
  | .group => some o.group
  | .priority => o.priority
  | .order => some o.order

/-- `Object::numberOfChannels` (`object.cpp:63-66`). -/
def numberOfChannels (o : Obj K) : Nat := o.channels.length

/-- `Object::channelIndex` (`object.cpp:68-75`). -/
def channelIndex (o : Obj K) (i : Nat) : Except Err Nat :=
  if i ≥ numberOfChannels o then .error .invalidArgument else .ok (o.channels.getD i 0)

/-- `Object::resetNumberOfChannels` (`object.cpp:77-81`). -/
def resetNumberOfChannels (o : Obj K) (n : Nat) : Obj K :=
  { o with channels := List.replicate n invalidChannel }

/-- `Object::setChannelIndex` (`object.cpp:83-90`). -/
def setChannelIndex (o : Obj K) (i c : Nat) : Except Err (Obj K) :=
  if i ≥ numberOfChannels o then .error .invalidArgument else .ok { o with channels := o.channels.set i c }

/-- `ChannelObject::outputChannel` (`channel_object.cpp:43-50`). -/
def outputChannel (o : Obj K) (i : Nat) : Except Err (List String) :=
  if i ≥ o.outputs.length then .error .outOfRange else .ok (o.outputs.getD i [])

/-- `ChannelObject::setOutputChannels` for a container (`channel_object.cpp:52-59`). -/
def setOutputChannels (o : Obj K) (l : List (List String)) : Except Err (Obj K) :=
  if l.length ≠ numberOfChannels o then .error .invalidArgument else .ok { o with outputs := l }

/-- `std::vector::resize`: entries are dropped from the end or empty lists are added. -/
def resize (l : List (List String)) (n : Nat) : List (List String) :=
  l.take n ++ List.replicate (n - l.length) []

/-- `ChannelObject::setOutputChannels` for an array of labels (`channel_object.cpp:61-73`): the copy is commented out. -/
def setOutputChannelsArray (o : Obj K) (labels : List String) : Except Err (Obj K) :=
  if labels.length ≠ numberOfChannels o then .error .invalidArgument
  else .ok { o with outputs := resize o.outputs labels.length }

/-- `ChannelObject::setOutputChannel` for a list of labels (`channel_object.cpp:84-91`). -/
def setOutputChannelList (o : Obj K) (i : Nat) (l : List String) : Except Err (Obj K) :=
  if i ≥ o.outputs.length then .error .outOfRange else .ok { o with outputs := o.outputs.set i l }

/-- `ChannelObject::setOutputChannel` for one label (`channel_object.cpp:75-82`). -/
def setOutputChannel (o : Obj K) (i : Nat) (label : String) : Except Err (Obj K) :=
  if i ≥ o.outputs.length then .error .outOfRange else .ok { o with outputs := o.outputs.set i [label] }

/-- `PointSource::unsetChannelLock` (`point_source.hpp:60`). -/
def unsetChannelLock [Zero K] (o : Obj K) : Obj K := setNum o .lock 0

/-- `PointSource::channelLock` (`point_source.cpp:50-53`), compares with `cNoChannelLock` (`point_source.cpp:62`). -/
def channelLock [Zero K] [LE K] [DecidableLE K] (o : Obj K) : Bool := decide (0 ≤ o.lock)

/-- Calls that change an object. -/
inductive Call (K : Type) where
  | num (a : NumAttr) (v : K)
  | int (a : IntAttr) (n : Nat)
  | unsetLock
  | resetChannels (n : Nat)
  | setChannel (i c : Nat)
  | outputs (l : List (List String))
  | outputsArray (labels : List String)
  | output (i : Nat) (label : String)
  | outputList (i : Nat) (labels : List String)

/-- One call. -/
def perform [Zero K] (o : Obj K) : Call K → Except Err (Obj K)
  | .num a v => .ok (setNum o a v)
  | .int a n => .ok (setInt o a n)
  | .unsetLock => .ok (unsetChannelLock o)
  | .resetChannels n => .ok (resetNumberOfChannels o n)
  | .setChannel i c => setChannelIndex o i c
  | .outputs l => setOutputChannels o l
  | .outputsArray l => setOutputChannelsArray o l
  | .output i s => setOutputChannel o i s
  | .outputList i l => setOutputChannelList o i l

/-- A call in a program that goes on after exceptions. -/
def attempt [Zero K] (o : Obj K) (c : Call K) : Obj K :=
  match perform o c with
  | .ok o' => o'
  | .error _ => o

/-- A sequence of calls. -/
def run [Zero K] (o : Obj K) (calls : List (Call K)) : Obj K := calls.foldl attempt o

/-- The class of the object that `clone()` constructs: `point_source.cpp:30-33`, `plane_wave.cpp:24-27`,
`diffuse_source.cpp:24-27`, `point_source_with_diffuseness.cpp:25-28`, `point_source_with_reverb.cpp:27-30`,
`point_source_extent.cpp:27-30`, `hoa_source.cpp:25-28`, `channel_object.cpp:28-31`. -/
def cloneKind : Kind → Kind
  | .pointSource => .pointSource
  | .planeWave => .planeWave
  | .diffuseSource => .diffuseSource
  | .pointSourceWithDiffuseness => .pointSourceWithDiffuseness
  | .pointSourceWithReverb => .pointSourceWithReverb
  | .pointSourceExtent => .pointSourceExtent
  | .hoaSource => .hoaSource
  | .channelObject => .channelObject

/-- `clone()`: the copy constructor copies all members. -/
def clone (o : Obj K) : Obj K := { o with kind := cloneKind o.kind }

/-- What a program does with several objects. -/
inductive Op (K : Type) where
  | call (i : Nat) (c : Call K)
  | clone (i : Nat)

/-- One operation on the objects of a program; a clone is a new object at the end. -/
def opStep [Zero K] (objs : List (Obj K)) : Op K → List (Obj K)
  | .call i c => objs.modify i (attempt · c)
  | .clone i =>
    match objs[i]? with
    | some o => objs ++ [clone o]
    | none => objs

/-! ### Python -/

/-- The loop of `getChannels` (`python/objectmodel/object.cpp:25-34`). -/
def getChannels (o : Obj K) : Except Err (List Nat) :=
  (List.range (numberOfChannels o)).mapM (channelIndex o)

/-- The loop of `setChannels` (`python/objectmodel/object.cpp:40-43`) from index `i`. -/
def setFrom (o : Obj K) (i : Nat) : List Nat → Except Err (Obj K)
  | [] => .ok o
  | c :: cs =>
    match setChannelIndex o i c with
    | .ok o' => setFrom o' (i + 1) cs
    | .error e => .error e

/-- `setChannels` (`python/objectmodel/object.cpp:36-44`). -/
def setChannels (o : Obj K) (l : List Nat) : Except Err (Obj K) :=
  setFrom (resetNumberOfChannels o l.length) 0 l

/-- Getter of `position` (`python/objectmodel/point_source.cpp:29-33`). -/
def getPosition (o : Obj K) : List K := [o.x, o.y, o.z]

/-- Setter of `position` (`python/objectmodel/point_source.cpp:34-43`). -/
def setPosition [Zero K] (o : Obj K) (pos : List K) : Except Err (Obj K) :=
  if pos.length < 2 ∨ pos.length > 3 then .error .invalidArgument
  else .ok (setNum (setNum (setNum o .x (pos.getD 0 0)) .y (pos.getD 1 0)) .z (if pos.length = 3 then pos.getD 2 0 else 0))

end

end Visr.ObjectAttr
