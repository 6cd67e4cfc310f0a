import Verif.PTree
import Verif.Run
import Verif.ChannelList.Model

/-!
# Object vectors and scene messages

Models
* `/repo/src/libobjectmodel/object_vector.{hpp,cpp}`,
* `/repo/src/libobjectmodel/object_vector_parser.cpp`,
* `/repo/src/libobjectmodel/object_parser.cpp` and the parsers of the object types,
* `/repo/src/libobjectmodel/object_factory.cpp`, `object_type.cpp`.

`K` is the type of coordinates, levels and other numbers, `E` the type of equaliser
settings (`rbbl::ParametricIirCoefficientList`), `R` the type of the reverberation
part of a point source with reverb, `L` the type of loudspeaker labels.  These are
opaque: the text of numbers, labels, equalisers and reverberation is replaced by
the value (an entry is missing, malformed or a value).
-/

namespace Visr.ObjectVector

open Visr

/-- `ObjectTypeId` (src/libobjectmodel/object_type.hpp). -/
inductive ObjType where
  | point
  | pointExtent
  | plane
  | diffuse
  | pointDiffuse
  | extended
  | hoa
  | channel
  | pointReverb
  deriving DecidableEq

/-- The attributes of all object classes in one record; an object of a given type
uses those its class has, the others keep their default (`libobjectmodel/*.hpp`).
The object id is `const` in the code (`object.hpp`, `mObjectId`). -/
structure Obj (K E R L : Type) where
  id : Nat
  typ : ObjType
  channels : List Nat
  group : Nat
  level : K
  priority : Nat
  eq : E
  x : K
  y : K
  z : K
  lock : K
  diffuseness : K
  width : K
  height : K
  depth : K
  az : K
  el : K
  refdist : K
  order : Nat
  outputs : List (List L)
  reverb : R
  deriving DecidableEq

/-- The "position" node of a message (`point_source_parser.cpp:64-115`). -/
structure PosTree (K : Type) where
  x : Entry K
  y : Entry K
  z : Entry K
  az : Entry K
  el : Entry K
  radius : Entry K

/-- The node of one object in a message.  `typ` is the type named by the text, or
`none` for a text that names no type; `direction` entries belong to plane waves. -/
structure ObjTree (K E R L : Type) where
  typ : Entry (Option ObjType)
  id : Entry Nat
  channels : Entry (List Char)
  group : Entry Nat
  level : Entry K
  priority : Entry Nat
  eq : Entry E
  position : Option (PosTree K)
  lock : Entry K
  diffuseness : Entry K
  width : Entry K
  height : Entry K
  depth : Entry K
  az : Entry K
  el : Entry K
  refdist : Entry K
  order : Entry Nat
  outputs : Entry (List (List L))
  room : Entry R

/-- A message: `none` if it is not valid JSON, `some none` if it has no "objects"
node, else the nodes of the objects. -/
abbrev Message (K E R L : Type) := Option (Option (List (ObjTree K E R L)))

/-- What the rest of the library contributes: default values of the opaque types
and the conversion from spherical (degrees) to Cartesian coordinates
(`efl::degree2radian`, `efl::spherical2cartesian`). -/
structure Env (K E R L : Type) where
  zero : K
  one : K
  eq0 : E
  reverb0 : R
  sph : K → K → K → K × K × K

variable {K E R L : Type}

/-- `catch( std::exception const & ) { throw std::invalid_argument(…); }`: a thrown
C string is not a `std::exception` and passes through. -/
def asInvalid {α : Type} : Outcome α → Outcome α
  | .ok a => .ok a
  | .throw .cString => .throw .cString
  | .throw _ => .throw .invalidArgument
  | .ub => .ub

/-- The channel part of `ObjectParser::parse` (`object_parser.cpp:24-39`): every
`std::exception` is caught and only reported, the channels then stay as they were;
a C string thrown by `IndexSequence` is not caught. -/
def parseChannels (t : ObjTree K E R L) (o : Obj K E R L) : Outcome (Obj K E R L) :=
  match (t.channels.get >>= ChannelList.parse : Outcome (List Int)) with
  | .ok l => .ok { o with channels := l.map Int.toNat }
  | .throw .cString => .throw .cString
  | .throw _ => .ok o
  | .ub => .ub

/-- `ObjectParser::parse` (`object_parser.cpp:20-52`). -/
def parseBase (env : Env K E R L) (t : ObjTree K E R L) (o : Obj K E R L) :
    Outcome (Obj K E R L) := do
  let o1 ← parseChannels t o
  let g ← t.group.get
  let o2 := { o1 with group := g }
  let l ← t.level.get
  let o3 := { o2 with level := l }
  let p ← t.priority.get
  let o4 := { o3 with priority := p }
  let e ← (if t.eq.present then t.eq.get else .ok env.eq0)
  .ok { o4 with eq := e }

/-- `PointSourceParser::parsePosition` (`point_source_parser.cpp:64-115`). -/
def parsePosition (env : Env K E R L) (p : PosTree K) : Outcome (K × K × K) :=
  let anyCart := p.x.get?.isSome || p.y.get?.isSome || p.z.get?.isSome
  let anySph := p.az.get?.isSome || p.el.get?.isSome || p.radius.get?.isSome
  if !(anyCart || anySph) then .throw .invalidArgument
  else if anyCart && anySph then .throw .invalidArgument
  else if anyCart then
    match p.x.get?, p.y.get? with
    | some x, some y => .ok (x, y, p.z.get?.getD env.zero)
    | _, _ => .throw .invalidArgument
  else
    match p.az.get?, p.el.get? with
    | some az, some el => .ok (env.sph az el (p.radius.get?.getD env.one))
    | _, _ => .throw .invalidArgument

/-- `PointSourceParser::parse` (`point_source_parser.cpp:22-45`). -/
def parsePoint (env : Env K E R L) (t : ObjTree K E R L) (o : Obj K E R L) :
    Outcome (Obj K E R L) := do
  let o1 ← parseBase env t o
  asInvalid (do
    let pos ← (match t.position with
      | some p => parsePosition env p
      | none => .throw .runtimeError)
    .ok { o1 with x := pos.1, y := pos.2.1, z := pos.2.2, lock := t.lock.getD env.zero })

/-- `PointSourceWithDiffusenessParser::parse`
(`point_source_with_diffuseness_parser.cpp:20-39`). -/
def parsePointDiffuse (env : Env K E R L) (t : ObjTree K E R L) (o : Obj K E R L) :
    Outcome (Obj K E R L) := asInvalid (do
  let o1 ← parsePoint env t o
  let d ← t.diffuseness.get
  .ok { o1 with diffuseness := d })

/-- `PointSourceExtentParser::parse` (`point_source_extent_parser.cpp:20-41`). -/
def parseExtent (env : Env K E R L) (t : ObjTree K E R L) (o : Obj K E R L) :
    Outcome (Obj K E R L) := asInvalid (do
  let o1 ← parsePointDiffuse env t o
  let w ← t.width.get
  let h ← t.height.get
  .ok { o1 with width := w, height := h, depth := t.depth.getD env.zero })

/-- `PointSourceWithReverbParser::parse` (`point_source_with_reverb_parser.cpp`):
simplification: the whole "room" node is one entry. -/
def parseReverb (env : Env K E R L) (t : ObjTree K E R L) (o : Obj K E R L) :
    Outcome (Obj K E R L) := asInvalid (do
  let o1 ← parsePoint env t o
  let r ← t.room.get
  .ok { o1 with reverb := r })

/-- `PlaneWaveParser::parse` (`plane_wave_parser.cpp:18-40`). -/
def parsePlane (env : Env K E R L) (t : ObjTree K E R L) (o : Obj K E R L) :
    Outcome (Obj K E R L) := do
  let o1 ← parseBase env t o
  asInvalid (do
    let a ← t.az.get
    let e ← t.el.get
    let r ← t.refdist.get
    .ok { o1 with az := a, el := e, refdist := r })

/-- `DiffuseSourceParser::parse` (`diffuse_source_parser.cpp:18-32`). -/
def parseDiffuse (env : Env K E R L) (t : ObjTree K E R L) (o : Obj K E R L) :
    Outcome (Obj K E R L) := asInvalid (parseBase env t o)

/-- `HoaSourceParser::parse` (`hoa_source_parser.cpp:18-45`).  Simplification: the
product of two `(order + 1)` does not wrap around. -/
def parseHoa (env : Env K E R L) (t : ObjTree K E R L) (o : Obj K E R L) :
    Outcome (Obj K E R L) := do
  let o1 ← parseBase env t o
  asInvalid (do
    let n ← t.order.get
    if (n + 1) * (n + 1) ≠ o1.channels.length then .throw .invalidArgument
    else .ok { o1 with order := n })

/-- `ChannelObjectParser::parse` (`channel_object_parser.cpp:84-108`). -/
def parseChannelObject (env : Env K E R L) (t : ObjTree K E R L) (o : Obj K E R L) :
    Outcome (Obj K E R L) := asInvalid (do
  let o1 ← parseBase env t o
  let o2 := { o1 with diffuseness := t.diffuseness.getD env.zero }
  let ids ← t.outputs.get
  if ids.length ≠ o2.channels.length then .throw .invalidArgument
  else .ok { o2 with outputs := ids })

/-- `ObjectFactory::parser( typeId )` and the virtual call of `parse`
(`object_factory.cpp`): all types but the extended source are registered. -/
def parserFor : ObjType → Outcome (Env K E R L → ObjTree K E R L → Obj K E R L →
    Outcome (Obj K E R L))
  | .point => .ok parsePoint
  | .pointExtent => .ok parseExtent
  | .plane => .ok parsePlane
  | .diffuse => .ok parseDiffuse
  | .pointDiffuse => .ok parsePointDiffuse
  | .extended => .throw .invalidArgument
  | .hoa => .ok parseHoa
  | .channel => .ok parseChannelObject
  | .pointReverb => .ok parseReverb

/-- `ObjectFactory::create( typeId, id )`: an object with default attributes.
(`mLevel` and `mPriority` are not initialised by the code; every parser sets them.) -/
def create (env : Env K E R L) (typ : ObjType) (id : Nat) : Obj K E R L where
  id := id
  typ := typ
  channels := []
  group := 0
  level := env.zero
  priority := 0
  eq := env.eq0
  x := env.zero
  y := env.zero
  z := env.zero
  lock := env.zero
  diffuseness := env.zero
  width := env.zero
  height := env.zero
  depth := env.zero
  az := env.zero
  el := env.zero
  refdist := env.zero
  order := 0
  outputs := []
  reverb := env.reverb0

/-! ### The container -/

/-- `ObjectContainer`, a `std::set` of objects ordered by id
(`object_vector.hpp:30-78`): the list of its elements in iteration order. -/
abbrev Vec (K E R L : Type) := List (Obj K E R L)

/-- `mObjects.find( id )`. -/
def find (v : Vec K E R L) (id : Nat) : Option (Obj K E R L) := v.find? (fun o => o.id == id)

/-- `mObjects.insert( obj )`: nothing happens if an equivalent element exists. -/
def setInsert (o : Obj K E R L) : Vec K E R L → Vec K E R L
  | [] => [o]
  | p :: v => if o.id < p.id then o :: p :: v
      else if p.id < o.id then p :: setInsert o v
      else p :: v

/-- `mObjects.erase( it )` for the element with this id. -/
def erase (v : Vec K E R L) (id : Nat) : Vec K E R L := v.filter (fun o => o.id != id)

/-- `insert( obj )`, both overloads (`object_vector.cpp:59-77`), for an object that
is not an element of the vector. -/
def insert (v : Vec K E R L) (o : Obj K E R L) : Vec K E R L :=
  let v1 := if (find v o.id).isSome then erase v o.id else v
  setInsert o v1

/-- `insert( v.at( id ) )`: the argument refers to an element of the vector itself,
which is erased before it is cloned (`object_vector.cpp:59-67`). -/
def insertOwn (v : Vec K E R L) (id : Nat) : Outcome (Vec K E R L) :=
  match find v id with
  | none => .throw .invalidArgument
  | some _ => .ub

/-- `at( id )` (`object_vector.cpp:39-57`). -/
def «at» (v : Vec K E R L) (id : Nat) : Outcome (Obj K E R L) :=
  match find v id with
  | none => .throw .invalidArgument
  | some o => .ok o

/-- Changing an element through the reference returned by `at( id )`: any attribute
but the id. -/
def modify (v : Vec K E R L) (id : Nat) (f : Obj K E R L → Obj K E R L) : Outcome (Vec K E R L) :=
  match find v id with
  | none => .throw .invalidArgument
  | some _ => .ok (v.map fun o => if o.id == id then { f o with id := o.id } else o)

/-- `remove( id )` (`object_vector.cpp:79-87`). -/
def remove (v : Vec K E R L) (id : Nat) : Outcome (Vec K E R L) :=
  match find v id with
  | none => .throw .invalidArgument
  | some _ => .ok (erase v id)

/-- `assign( rhs )` for another vector (`object_vector.cpp:25-32`): clear, then
insert every element. -/
def assign (rhs : Vec K E R L) : Vec K E R L := rhs.foldl (fun acc o => setInsert o acc) []

/-- `v.assign( v )` (`object_vector.cpp:25-32`): the elements are cleared before
they are copied. -/
def assignSelf (_ : Vec K E R L) : Vec K E R L := assign []

/-! ### Messages -/

/-- `ObjectVectorParser::parseObject` (`object_vector_parser.cpp:93-121`).
`ObjectFactory::create` cannot fail here because the parser lookup succeeded. -/
def parseObject (env : Env K E R L) (t : ObjTree K E R L) (v : Vec K E R L) :
    Outcome (Vec K E R L) := do
  let typ ← t.typ.get
  let id ← t.id.get
  let typ ← (match typ with
    | some ty => .ok ty
    | none => .throw .logicError : Outcome ObjType)
  let parser ← parserFor typ
  let obj := match find v id with
    | some o => if o.typ = typ then o else create env typ id
    | none => create env typ id
  let obj' ← parser env t obj
  .ok (insert v obj')

/-- The loop of `updateObjectVector` over the object nodes
(`object_vector_parser.cpp:73-83`). -/
def updateLoop (env : Env K E R L) : List (ObjTree K E R L) → Vec K E R L →
    Outcome Unit × Vec K E R L
  | [], v => (.ok (), v)
  | t :: ts, v =>
    match asInvalid (parseObject env t v) with
    | .ok v' => updateLoop env ts v'
    | .throw e => (.throw e, v)
    | .ub => (.ub, v)

/-- `updateObjectVector( message, res )` (`object_vector_parser.cpp:58-84`): the
outcome and the vector afterwards.  A missing "objects" node throws a property tree
exception, derived from `std::runtime_error`. -/
def updateObjectVector (env : Env K E R L) (m : Message K E R L) (v : Vec K E R L) :
    Outcome Unit × Vec K E R L :=
  match m with
  | none => (.throw .invalidArgument, v)
  | some none => (.throw .runtimeError, v)
  | some (some ts) => updateLoop env ts v

/-- `fillObjectVector( message, res )` (`object_vector_parser.cpp:32-43`). -/
def fillObjectVector (env : Env K E R L) (m : Message K E R L) (res : Vec K E R L) :
    Outcome Unit × Vec K E R L :=
  match updateObjectVector env m [] with
  | (.ok _, newVec) => (.ok (), newVec)
  | (.throw e, _) => (.throw e, res)
  | (.ub, _) => (.ub, res)

/-! ### Histories over several vectors -/

/-- The operations of a history; vectors are numbered. -/
inductive Op (K E R L : Type) where
  | insert (i : Nat) (o : Obj K E R L)
  | insertOwn (i id : Nat)
  | «at» (i id : Nat)
  | modify (i id : Nat) (f : Obj K E R L → Obj K E R L)
  | remove (i id : Nat)
  | clear (i : Nat)
  | assign (i j : Nat)
  | swap (i j : Nat)
  | update (i : Nat) (m : Message K E R L)
  | fill (i : Nat) (m : Message K E R L)

/-- All vectors of a program. -/
abbrev World (K E R L : Type) := Nat → Vec K E R L

/-- Replace vector `i`. -/
def put (w : World K E R L) (i : Nat) (v : Vec K E R L) : World K E R L :=
  fun j => if j = i then v else w j

/-- Keep the new contents if the operation succeeded. -/
def keep (w : World K E R L) (i : Nat) : Outcome (Vec K E R L) → World K E R L × Outcome (Option (Obj K E R L))
  | .ok v => (put w i v, .ok none)
  | .throw e => (w, .throw e)
  | .ub => (w, .ub)

/-- One operation: the vectors afterwards and what the caller sees. -/
def step (env : Env K E R L) (w : World K E R L) :
    Op K E R L → World K E R L × Outcome (Option (Obj K E R L))
  | .insert i o => (put w i (insert (w i) o), .ok none)
  | .insertOwn i id => keep w i (insertOwn (w i) id)
  | .at i id => (w, («at» (w i) id).map some)
  | .modify i id f => keep w i (modify (w i) id f)
  | .remove i id => keep w i (remove (w i) id)
  | .clear i => (put w i [], .ok none)
  | .assign i j => (put w i (if i = j then assignSelf (w i) else assign (w j)), .ok none)
  | .swap i j => (fun k => if k = i then w j else if k = j then w i else w k, .ok none)
  | .update i m =>
    let r := updateObjectVector env m (w i)
    (put w i r.2, r.1.map fun _ => none)
  | .fill i m =>
    let r := fillObjectVector env m (w i)
    (put w i r.2, r.1.map fun _ => none)

end Visr.ObjectVector
