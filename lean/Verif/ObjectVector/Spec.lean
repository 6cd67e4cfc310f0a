import Verif.ObjectVector.Model

/-!
# Specification of object vectors: maps from ids to objects
-/

namespace Visr.ObjectVector

open Visr

variable {K E R L : Type}

/-- What a user thinks of: for every vector, the object stored under each id. -/
abbrev Maps (K E R L : Type) := Nat → Nat → Option (Obj K E R L)

/-- Store `x` under `id` in map `i`. -/
def Maps.set (m : Maps K E R L) (i id : Nat) (x : Option (Obj K E R L)) : Maps K E R L :=
  fun j k => if j = i ∧ k = id then x else m j k

/-- Replace map `i`. -/
def Maps.replace (m : Maps K E R L) (i : Nat) (f : Nat → Option (Obj K E R L)) : Maps K E R L :=
  fun j => if j = i then f else m j

/-- The object whose attributes a node replaces: the stored one if it has the same
type, else a new one. -/
def startObj (env : Env K E R L) (id : Nat) (typ : ObjType) :
    Option (Obj K E R L) → Obj K E R L
  | some o => if o.typ = typ then o else create env typ id
  | none => create env typ id

/-- The object that a node of a message describes, given the object stored under
its id before. -/
def describe (env : Env K E R L) (t : ObjTree K E R L) (id : Nat) (typ : ObjType)
    (old : Option (Obj K E R L)) : Outcome (Obj K E R L) := do
  let parser ← parserFor typ
  parser env t (startObj env id typ old)

/-- The effect of one object node on a map: `none` if the node is refused. -/
def applyNode (env : Env K E R L) (t : ObjTree K E R L) (f : Nat → Option (Obj K E R L)) :
    Outcome (Nat → Option (Obj K E R L)) :=
  match t.typ, t.id with
  | .val (some typ), .val id =>
    match describe env t id typ (f id) with
    | .ok o => .ok (fun k => if k = id then some o else f k)
    | .throw .cString => .throw .cString
    | .throw _ => .throw .invalidArgument
    | .ub => .ub
  | _, _ => .throw .invalidArgument

/-- The effect of a list of object nodes: they are applied in order up to the first
refused one. -/
def applyNodes (env : Env K E R L) : List (ObjTree K E R L) → (Nat → Option (Obj K E R L)) →
    Outcome Unit × (Nat → Option (Obj K E R L))
  | [], f => (.ok (), f)
  | t :: ts, f =>
    match applyNode env t f with
    | .ok f' => applyNodes env ts f'
    | .throw e => (.throw e, f)
    | .ub => (.ub, f)

/-- The effect of a message. -/
def applyMessage (env : Env K E R L) (m : Message K E R L) (f : Nat → Option (Obj K E R L)) :
    Outcome Unit × (Nat → Option (Obj K E R L)) :=
  match m with
  | none => (.throw .invalidArgument, f)
  | some none => (.throw .runtimeError, f)
  | some (some ts) => applyNodes env ts f

/-- The specification of every operation on maps. -/
def specStep (env : Env K E R L) (m : Maps K E R L) :
    Op K E R L → Maps K E R L × Outcome (Option (Obj K E R L))
  | .insert i o => (m.set i o.id (some o), .ok none)
  | .insertOwn i id =>
    match m i id with
    | none => (m, .throw .invalidArgument)
    | some _ => (m, .ok none)
  | .at i id =>
    match m i id with
    | none => (m, .throw .invalidArgument)
    | some o => (m, .ok (some o))
  | .modify i id f =>
    match m i id with
    | none => (m, .throw .invalidArgument)
    | some o => (m.set i id (some { f o with id := id }), .ok none)
  | .remove i id =>
    match m i id with
    | none => (m, .throw .invalidArgument)
    | some _ => (m.set i id none, .ok none)
  | .clear i => (m.replace i fun _ => none, .ok none)
  | .assign i j => (m.replace i (m j), .ok none)
  | .swap i j => ((m.replace j (m i)).replace i (m j), .ok none)
  | .update i msg =>
    let r := applyMessage env msg (m i)
    (m.replace i r.2, r.1.map fun _ => none)
  | .fill i msg =>
    match applyMessage env msg (fun _ => none) with
    | (.ok _, f) => (m.replace i f, .ok none)
    | (.throw e, _) => (m, .throw e)
    | (.ub, _) => (m, .ub)

/-- The two uses the container does not support: assigning a vector to itself with
`assign`, and inserting a reference to one of its own elements. -/
def Op.SelfUse : Op K E R L → Prop
  | .insertOwn _ _ => True
  | .assign i j => i = j
  | _ => False

/-- The channel list an object has after a node with the entry `c`: the expansion of
the text if it is a valid index sequence, else the channels it had before. -/
def NewChannels (c : Entry (List Char)) (old new : List Nat) : Prop :=
  (∃ text l, c = .val text ∧ ChannelList.parse text = .ok l ∧ new = l.map Int.toNat) ∨
    ((∀ text l, c = .val text → ChannelList.parse text ≠ .ok l) ∧ new = old)

/-- The channels an object had before a node of type `typ` is applied. -/
def oldChannels (typ : ObjType) : Option (Obj K E R L) → List Nat
  | some o => if o.typ = typ then o.channels else []
  | none => []

/-- The position a node gives: Cartesian coordinates (`z` may be left out) or
spherical ones (`radius` may be left out). -/
def GivesPosition (env : Env K E R L) (p : PosTree K) (x y z : K) : Prop :=
  (p.x = .val x ∧ p.y = .val y ∧ z = p.z.getD env.zero) ∨
    (∃ az el, p.az = .val az ∧ p.el = .val el ∧
      (x, y, z) = env.sph az el (p.radius.getD env.one))

/-- Object `o` has the values which the node `t` gives to an object of its type;
`old` are the channels the object had before. -/
structure Matches (env : Env K E R L) (t : ObjTree K E R L) (old : List Nat)
    (o : Obj K E R L) : Prop where
  typ : t.typ = .val (some o.typ)
  id : t.id = .val o.id
  group : t.group = .val o.group
  level : t.level = .val o.level
  priority : t.priority = .val o.priority
  eq : t.eq = .val o.eq ∨ (t.eq = .missing ∧ o.eq = env.eq0)
  channels : NewChannels t.channels old o.channels
  position : o.typ ∈ [.point, .pointDiffuse, .pointExtent, .pointReverb] →
    ∃ p, t.position = some p ∧ GivesPosition env p o.x o.y o.z ∧ o.lock = t.lock.getD env.zero
  diffuseness : o.typ ∈ [.pointDiffuse, .pointExtent] → t.diffuseness = .val o.diffuseness
  extent : o.typ = .pointExtent →
    t.width = .val o.width ∧ t.height = .val o.height ∧ o.depth = t.depth.getD env.zero
  reverb : o.typ = .pointReverb → t.room = .val o.reverb
  plane : o.typ = .plane → t.az = .val o.az ∧ t.el = .val o.el ∧ t.refdist = .val o.refdist
  hoa : o.typ = .hoa → t.order = .val o.order ∧ o.channels.length = (o.order + 1) * (o.order + 1)
  channelObject : o.typ = .channel → t.outputs = .val o.outputs ∧
    o.outputs.length = o.channels.length ∧ o.diffuseness = t.diffuseness.getD env.zero
  known : o.typ ≠ .extended

/-- The position node gives all that is needed in exactly one coordinate system. -/
def PosTree.Complete (p : PosTree K) : Prop :=
  ((∃ a, p.x = .val a) ∧ (∃ a, p.y = .val a) ∧
      (∀ a, p.az ≠ .val a) ∧ (∀ a, p.el ≠ .val a) ∧ (∀ a, p.radius ≠ .val a)) ∨
    ((∃ a, p.az = .val a) ∧ (∃ a, p.el = .val a) ∧
      (∀ a, p.x ≠ .val a) ∧ (∀ a, p.y ≠ .val a) ∧ (∀ a, p.z ≠ .val a))

/-- The node gives all that an object of type `typ` with `n` channels needs. -/
def ObjTree.Attributes (t : ObjTree K E R L) (n : Nat) : ObjType → Prop
  | .point => ∃ p, t.position = some p ∧ p.Complete
  | .pointDiffuse => (∃ p, t.position = some p ∧ p.Complete) ∧ ∃ a, t.diffuseness = .val a
  | .pointExtent => (∃ p, t.position = some p ∧ p.Complete) ∧ (∃ a, t.diffuseness = .val a) ∧
      (∃ a, t.width = .val a) ∧ ∃ a, t.height = .val a
  | .pointReverb => (∃ p, t.position = some p ∧ p.Complete) ∧ ∃ a, t.room = .val a
  | .plane => (∃ a, t.az = .val a) ∧ (∃ a, t.el = .val a) ∧ ∃ a, t.refdist = .val a
  | .diffuse => True
  | .hoa => ∃ a, t.order = .val a ∧ n = (a + 1) * (a + 1)
  | .channel => ∃ a, t.outputs = .val a ∧ a.length = n
  | .extended => False

/-- A node that should be accepted. -/
structure ObjTree.Complete (t : ObjTree K E R L) (ty : ObjType) (ch : List Nat) : Prop where
  typ : t.typ = .val (some ty)
  id : ∃ a, t.id = .val a
  group : ∃ a, t.group = .val a
  level : ∃ a, t.level = .val a
  priority : ∃ a, t.priority = .val a
  eq : t.eq ≠ .malformed
  channels : ∃ text l, t.channels = .val text ∧ ChannelList.parse text = .ok l ∧ ch = l.map Int.toNat
  attributes : t.Attributes ch.length ty

end Visr.ObjectVector
