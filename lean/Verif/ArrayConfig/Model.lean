import Verif.Outcome
import Verif.PTree
import Verif.Biquad.Model
import Mathlib.Algebra.Field.Defs
import Mathlib.Data.List.Sort

/-!
# Loading a loudspeaker array configuration

`LoudspeakerArray::loadXmlStream` and the accessors of the loaded array
(`libpanning/LoudspeakerArray.cpp`, `libpanning/LoudspeakerArray.h`).

The XML text itself is not modelled: a configuration is given as the tree that
`boost::property_tree::read_xml` returns, reduced to the nodes and attributes the
function looks at.  Text attributes are lists of characters, numeric attributes are
`Entry` values (absent, unreadable, or a number).  Rounding is not modelled.
-/

namespace Visr.ArrayConfig
open Visr

variable {K : Type}

/-- `LoudspeakerIdType` (`LoudspeakerArray.h:49`). -/
abbrev Id := List Char

/-- The conversions of coordinates and decibel values (`efl::spherical2cartesian`
applied to `efl::degree2radian` of both angles, `LoudspeakerArray.cpp:139`; and
`10^(g/20)`, `LoudspeakerArray.cpp:165` and `efl::dB2linear`, `:410`).  They are
parameters here: the loading code only passes values through them.  Simplification:
the two decibel formulas agree in exact arithmetic and share one parameter. -/
structure Conv (K : Type) where
  polar : K → K → K → K × K × K
  dB : K → K

/-- `panning::XYZ`: a position and the plane-wave flag. -/
structure XYZ (K : Type) where
  x : K
  y : K
  z : K
  infinite : Bool
  deriving DecidableEq

/-- A `cart` node. -/
structure Cart (K : Type) where
  x : Entry K
  y : Entry K
  z : Entry K

/-- A `polar` node. -/
structure Polar (K : Type) where
  az : Entry K
  el : Entry K
  r : Entry K

/-- The coordinate nodes below a loudspeaker node. -/
structure Coord (K : Type) where
  carts : List (Cart K)
  polars : List (Polar K)

/-- The gain and delay attributes of a loudspeaker or subwoofer node. -/
structure Adjust (K : Type) where
  gain : Entry K
  gainDB : Entry K
  delay : Entry K

/-- A `loudspeaker` node. -/
structure Lsp (K : Type) where
  id : Option Id
  channel : Entry Nat
  coord : Coord K
  adjust : Adjust K
  eq : Option Id

/-- A `route` node below a `virtualspeaker` node. -/
structure Route (K : Type) where
  lspId : Option Id
  gainDB : Entry K

/-- A `virtualspeaker` node. -/
structure Virt (K : Type) where
  id : Option Id
  coord : Coord K
  routes : List (Route K)

/-- A `triplet` node. -/
structure Triplet where
  l1 : Option Id
  l2 : Option Id
  l3 : Option Id

/-- A `subwoofer` node.  The text of the weights is replaced by the sequence it
denotes. -/
structure Sub (K : Type) where
  channel : Entry Nat
  assigned : Option Id
  weights : Entry (List K)
  adjust : Adjust K
  eq : Option Id

/-- A `biquad` node. -/
structure Section (K : Type) where
  a0 : Entry K
  a1 : Entry K
  a2 : Entry K
  b0 : Entry K
  b1 : Entry K
  b2 : Entry K

/-- A `filterSpec` node. -/
structure FilterSpec (K : Type) where
  name : Option Id
  sections : List (Section K)

/-- An `outputEqConfiguration` node. -/
structure EqConfig (K : Type) where
  numberOfBiquads : Entry Nat
  specs : List (FilterSpec K)

/-- The `panningConfiguration` node: its attributes and its children by name, each in
document order (`ptree::equal_range`). -/
structure Config (K : Type) where
  dimension : Option Id
  infinite : Entry Bool
  loudspeakers : List (Lsp K)
  virtuals : List (Virt K)
  triplets : List Triplet
  subwoofers : List (Sub K)
  eqConfigs : List (EqConfig K)

/-- The members of `LoudspeakerArray` (`LoudspeakerArray.h:330-400`).  Rows of the two
matrices are lists; the map from ids to indices is a list of pairs.  Simplification:
the pairs are kept in the order of insertion, not of the ids. -/
structure Arr (K : Type) where
  is2D : Bool
  isInfinite : Bool
  position : List (XYZ K)
  channel : List Nat
  ids : List (Id × Nat)
  gainAdj : List K
  delayAdj : List K
  reRouting : List (List K)
  triplets : List (Nat × Nat × Option Nat)
  subChannels : List Nat
  subGains : List (List K)
  eqs : Option (List (List (Biquad.Coef K)))
  deriving DecidableEq

/-- The default constructor (`LoudspeakerArray.cpp:51-55`). -/
def Arr.empty : Arr K :=
  ⟨false, false, [], [], [], [], [], [], [], [], [], none⟩

/-- `m_id.find( id )`. -/
def find {V : Type*} (ids : List (Id × V)) (id : Id) : Option V :=
  match ids with
  | [] => none
  | (k, v) :: rest => if k = id then some v else find rest id

/-- `m_id[id] = v`. -/
def insert (ids : List (Id × Nat)) (id : Id) (v : Nat) : List (Id × Nat) :=
  match ids with
  | [] => [(id, v)]
  | (k, w) :: rest => if k = id then (k, v) :: rest else (k, w) :: insert rest id v

/-- `ptree::get< std::string >` of an attribute. -/
def getText : Option Id → Outcome Id
  | some t => .ok t
  | none => .throw .runtimeError

/-- `boost::is_any_of( "\t " )`. -/
def isBlank (c : Char) : Bool := c = ' ' || c = '\t'

/-- `boost::trim_if( id, boost::is_any_of( "\t " ) )`. -/
def trim (t : Id) : Id :=
  ((t.dropWhile isBlank).reverse.dropWhile isBlank).reverse

/-- One character of the id expression (`LoudspeakerArray.cpp:312-317`), in the variant
with `std::regex`. -/
def idChar (c : Char) : Bool :=
  c.isAlphanum || c = '@' || c = '&' || c = '(' || c = ')' || c = '+' || c = '/' || c = ':'
    || c = '_' || c = '-'

/-- `std::regex_match( id, idExpression )`. -/
def validId (t : Id) : Bool := !t.isEmpty && t.all idChar

/-- A checked write to an element of a vector: outside the vector the code has
undefined behaviour. -/
def put {α : Type*} (l : List α) (i : Nat) (v : α) : Outcome (List α) :=
  if i < l.length then .ok (l.set i v) else .ub

/-- `matrix( row, column ) = v` (`BasicMatrix::operator()`, not range-checked). -/
def putAt {α : Type*} (m : List (List α)) (row column : Nat) (v : α) :
    Outcome (List (List α)) :=
  match m[row]? with
  | none => .ub
  | some r => if column < r.length then .ok (m.set row (r.set column v)) else .ub

/-- `std::vector::resize`. -/
def resize {α : Type*} (l : List α) (n : Nat) (d : α) : List α :=
  l.take n ++ List.replicate (n - l.length) d

/-- `get_optional` with a default in two dimensions and `get` in three
(`LoudspeakerArray.cpp:112-120` and `:128-136`). -/
def height [Zero K] (is2D : Bool) (e : Entry K) : Outcome K :=
  if is2D then .ok (e.getD 0) else e.get

/-- The branch of `parseCoordNode` for a `cart` node (`LoudspeakerArray.cpp:107-121`). -/
def parseCart [Zero K] (is2D inf : Bool) (c : Cart K) : Outcome (XYZ K) := do
  let x ← c.x.get
  let y ← c.y.get
  let z ← height is2D c.z
  .ok ⟨x, y, z, inf⟩

/-- The branch of `parseCoordNode` for a `polar` node (`LoudspeakerArray.cpp:122-140`). -/
def parsePolar [Zero K] (cv : Conv K) (is2D inf : Bool) (c : Polar K) : Outcome (XYZ K) := do
  let az ← c.az.get
  let el ← height is2D c.el
  let r ← c.r.get
  let p := cv.polar az el r
  .ok ⟨p.1, p.2.1, p.2.2, inf⟩

/-- `parseCoordNode` (`LoudspeakerArray.cpp:94-142`). -/
def parseCoord [Zero K] (cv : Conv K) (is2D inf : Bool) (c : Coord K) : Outcome (XYZ K) :=
  if c.carts.length > 1 || c.polars.length > 1
      || !(xor (c.carts.length = 1) (c.polars.length = 1)) then .throw .invalidArgument
  else
    match c.carts, c.polars with
    | n :: _, _ => parseCart is2D inf n
    | [], n :: _ => parsePolar cv is2D inf n
    | [], [] => .throw .invalidArgument

/-- `parseGainDelayAdjustments` (`LoudspeakerArray.cpp:151-173`). -/
def parseAdjust [Zero K] [One K] (cv : Conv K) (n : Adjust K) : Outcome (K × K) :=
  match n.gain.get?, n.gainDB.get? with
  | some _, some _ => .throw .invalidArgument
  | some g, none => .ok (g, n.delay.getD 0)
  | none, some g => .ok (cv.dB g, n.delay.getD 0)
  | none, none => .ok (1, n.delay.getD 0)

/-- `BiquadCoefficient::loadXml` (`biquad_coefficient.cpp:112-131`). -/
def parseSection [Div K] [One K] (s : Section K) : Outcome (Biquad.Coef K) := do
  let a0 := s.a0.getD 1
  let a1 ← s.a1.get
  let a2 ← s.a2.get
  let b0 ← s.b0.get
  let b1 ← s.b1.get
  let b2 ← s.b2.get
  .ok ⟨b0 / a0, b1 / a0, b2 / a0, a1 / a0, a2 / a0⟩

/-- `BiquadCoefficientList::loadXml` (`biquad_coefficient.cpp:293-310`). -/
def parseSections [Div K] [One K] : List (Section K) → Outcome (List (Biquad.Coef K))
  | [] => .ok []
  | s :: ss => do
    let c ← parseSection s
    let cs ← parseSections ss
    .ok (c :: cs)

/-- `ChannelEqLookupTable` with the number of sections. -/
structure EqTable (K : Type) where
  sections : Nat
  filters : List (Id × List (Biquad.Coef K))

/-- The loop of `parseChannelLookup` (`LoudspeakerArray.cpp:181-195`): `map::insert`
leaves an existing entry alone, which `find` expresses by returning the first entry. -/
def parseSpecs [Div K] [One K] :
    List (FilterSpec K) → Outcome (List (Id × List (Biquad.Coef K)))
  | [] => .ok []
  | s :: ss => do
    let name ← getText s.name
    let f ← parseSections s.sections
    let fs ← parseSpecs ss
    .ok ((name, f) :: fs)

/-- The equalisation section (`LoudspeakerArray.cpp:284-303`). -/
def parseEqConfig [Div K] [One K] (cs : List (EqConfig K)) : Outcome (Option (EqTable K)) :=
  match cs with
  | [] => .ok none
  | [c] => do
    let n ← c.numberOfBiquads.get
    let t ← parseSpecs c.specs
    .ok (some ⟨n, t⟩)
  | _ => .throw .invalidArgument

/-- The default biquad section (`biquad_coefficient.hpp`): the identity. -/
def unitSection [Zero K] [One K] : Biquad.Coef K := ⟨1, 0, 0, 0, 0⟩

/-- The filter named by an `eq` attribute, or none (`LoudspeakerArray.cpp:202-215`). -/
def eqFilter (t : EqTable K) (eq : Option Id) : Outcome (List (Biquad.Coef K)) :=
  match eq with
  | none => .ok []
  | some n =>
    match find t.filters n with
    | none => .throw .invalidArgument
    | some f => .ok f

/-- `BiquadCoefficientMatrix::setFilter` (`biquad_coefficient.cpp:460-476`). -/
def setFilter [Zero K] [One K] (sections : Nat) (m : List (List (Biquad.Coef K))) (i : Nat)
    (f : List (Biquad.Coef K)) : Outcome (List (List (Biquad.Coef K))) :=
  if i ≥ m.length then .throw .outOfRange
  else if f.length > sections then .throw .invalidArgument
  else .ok (m.set i (f ++ List.replicate (sections - f.length) unitSection))

/-- `if( eqConfigPresent ) parseEqFilter( … )` (`LoudspeakerArray.cpp:197-216`, `:372-375`
and `:518-521`). -/
def applyEq [Zero K] [One K] (t : Option (EqTable K)) (eq : Option Id) (i : Nat)
    (m : Option (List (List (Biquad.Coef K)))) :
    Outcome (Option (List (List (Biquad.Coef K)))) :=
  match t, m with
  | some t, some m => do
    let f ← eqFilter t eq
    let m ← setFilter t.sections m i f
    .ok (some m)
  | _, m => .ok m

/-- The `dimension` attribute (`LoudspeakerArray.cpp:244-264`). -/
def parseDimension : Option Id → Outcome Bool
  | none => .ok false
  | some t => if t = ['2'] then .ok true else if t = ['3'] then .ok false
      else .throw .invalidArgument

/-- The check of a loudspeaker id (`LoudspeakerArray.cpp:327-334` and `:384-393`): it must
match the expression and be new. -/
def checkId (ids : List (Id × Nat)) (id : Id) : Outcome Unit :=
  if !validId id || (find ids id).isSome then .throw .invalidArgument else .ok ()

/-- The check of a channel number (`LoudspeakerArray.cpp:341-344`). -/
def checkChannel (c : Nat) : Outcome Unit :=
  if c < 1 then .throw .invalidArgument else .ok ()

/-- One iteration of the first loop over the loudspeakers (`LoudspeakerArray.cpp:321-348`):
the id is registered with index 0, the channel is appended.  The test of `:336` never
fails, as every element of `m_channel` is assigned once. -/
def register (s : List (Id × Nat) × List Nat) (l : Lsp K) :
    Outcome (List (Id × Nat) × List Nat) := do
  let text ← getText l.id
  let id := trim text
  checkId s.1 id
  let c ← l.channel.get
  checkChannel c
  .ok (insert s.1 id 0, s.2 ++ [c])

/-- One iteration of the second loop over the loudspeakers (`LoudspeakerArray.cpp:356-376`):
here the id is not trimmed. -/
def place [Zero K] [One K] (cv : Conv K) (t : Option (EqTable K)) (a : Arr K) (l : Lsp K) :
    Outcome (Arr K) := do
  let id ← getText l.id
  let c ← l.channel.get
  let i := a.channel.idxOf c
  let p ← parseCoord cv a.is2D a.isInfinite l.coord
  let position ← put a.position i p
  let g ← parseAdjust cv l.adjust
  let gainAdj ← put a.gainAdj i g.1
  let delayAdj ← put a.delayAdj i g.2
  let eqs ← applyEq t l.eq i a.eqs
  .ok { a with
    ids := insert a.ids id i, position := position, gainAdj := gainAdj,
    delayAdj := delayAdj, eqs := eqs }

/-- `m_id.find( id ) == m_id.end() or id.empty()` with the exception it leads to, and the
index otherwise. -/
def resolve (ids : List (Id × Nat)) (id : Id) : Outcome Nat :=
  match find ids id with
  | none => .throw .invalidArgument
  | some i => if id.isEmpty then .throw .invalidArgument else .ok i

/-- One `route` node (`LoudspeakerArray.cpp:398-411`). -/
def route (cv : Conv K) (ids : List (Id × Nat)) (row : Nat) (m : List (List K)) (r : Route K) :
    Outcome (List (List K)) := do
  let text ← getText r.lspId
  let g ← r.gainDB.get
  let j ← resolve ids (trim text)
  putAt m row j (cv.dB g)

/-- One iteration of the loop over the virtual loudspeakers (`LoudspeakerArray.cpp:380-423`),
with the index `i` assigned to the loudspeaker. -/
def placeVirtual [Zero K] (cv : Conv K) (a : Arr K) (v : Virt K × Nat) : Outcome (Arr K) := do
  let text ← getText v.1.id
  let id := trim text
  checkId a.ids id
  let ids := insert a.ids id v.2
  let m ← v.1.routes.foldlM (route cv ids (v.2 - a.channel.length)) a.reRouting
  let p ← parseCoord cv a.is2D a.isInfinite v.1.coord
  let position ← put a.position v.2 p
  .ok { a with ids := ids, reRouting := m, position := position }

/-- The third index of a triplet (`LoudspeakerArray.cpp:452-465`); `none` stands for the
value `size_t( -1 )` used in two dimensions. -/
def thirdIndex (is2D : Bool) (ids : List (Id × Nat)) (t : Option Id) : Outcome (Option Nat) :=
  if is2D then .ok none
  else do
    let text ← getText t
    let k ← resolve ids (trim text)
    .ok (some k)

/-- One `triplet` node (`LoudspeakerArray.cpp:434-468`). -/
def parseTriplet (is2D : Bool) (ids : List (Id × Nat)) (t : Triplet) :
    Outcome (Nat × Nat × Option Nat) := do
  let t1 ← getText t.l1
  let t2 ← getText t.l2
  let i ← resolve ids (trim t1)
  let j ← resolve ids (trim t2)
  let k ← thirdIndex is2D ids t.l3
  .ok (i, j, k)

/-- The loop over the triplets (`LoudspeakerArray.cpp:429-469`). -/
def parseTriplets (is2D : Bool) (ids : List (Id × Nat)) :
    List Triplet → Outcome (List (Nat × Nat × Option Nat))
  | [] => .ok []
  | t :: ts => do
    let x ← parseTriplet is2D ids t
    let xs ← parseTriplets is2D ids ts
    .ok (x :: xs)

/-- `::isspace` in the "C" locale. -/
def isSpace (c : Char) : Bool :=
  c = ' ' || c = '\t' || c = '\n' || c = '\r' || c = '\x0b' || c = '\x0c'

/-- `boost::split( …, is_any_of( "," ), token_compress_on )`: a run of separators ends one
token; a leading or trailing run leaves an empty token. -/
def split : List Char → List Id
  | [] => [[]]
  | [c] => if c = ',' then [[], []] else [[c]]
  | c :: d :: rest =>
    if c = ',' then
      if d = ',' then split (d :: rest) else [] :: split (d :: rest)
    else
      match split (d :: rest) with
      | [] => [[c]]
      | t :: ts => (c :: t) :: ts

/-- The names in the attribute `assignedLoudspeakers` (`LoudspeakerArray.cpp:483-486`). -/
def assignedNames (text : Id) : List Id := split (text.filter fun c => !isSpace c)

/-- The check of the assigned loudspeakers (`LoudspeakerArray.cpp:487-491`). -/
def checkAssigned (ids : List (Id × Nat)) (names : List Id) : Outcome Unit :=
  if names.any fun n => (find ids n).isNone || n.isEmpty then .throw .invalidArgument else .ok ()

/-- The weights of the assigned loudspeakers (`LoudspeakerArray.cpp:493-512`). -/
def parseWeights [One K] (w : Entry (List K)) (n : Nat) : Outcome (List K) :=
  match w with
  | .missing => .ok (List.replicate n 1)
  | .malformed => .throw .invalidArgument
  | .val ws => if ws.length ≠ n then .throw .invalidArgument else .ok ws

/-- `m_subwooferGains( subIdx, m_id[name] ) = weight` (`LoudspeakerArray.cpp:503` and `:510`). -/
def assign (ids : List (Id × Nat)) (row : Nat) (m : List (List K)) (p : Id × K) :
    Outcome (List (List K)) :=
  putAt m row ((find ids p.1).getD 0) p.2

/-- One iteration of the loop over the subwoofers (`LoudspeakerArray.cpp:476-522`). -/
def placeSub [Zero K] [One K] (cv : Conv K) (t : Option (EqTable K)) (a : Arr K)
    (s : Sub K × Nat) : Outcome (Arr K) := do
  let c ← s.1.channel.get
  let subChannels ← put a.subChannels s.2 c
  let text ← getText s.1.assigned
  let names := assignedNames text
  checkAssigned a.ids names
  let ws ← parseWeights s.1.weights names.length
  let m ← (names.zip ws).foldlM (assign a.ids s.2) a.subGains
  let g ← parseAdjust cv s.1.adjust
  let gainAdj ← put a.gainAdj (a.channel.length + s.2) g.1
  let delayAdj ← put a.delayAdj (a.channel.length + s.2) g.2
  let eqs ← applyEq t s.1.eq (a.channel.length + s.2) a.eqs
  .ok { a with
    subChannels := subChannels, subGains := m, gainAdj := gainAdj,
    delayAdj := delayAdj, eqs := eqs }

/-- `std::adjacent_find( … ) != end()`. -/
def hasAdjacent : List Nat → Bool
  | a :: b :: rest => a = b || hasAdjacent (b :: rest)
  | _ => false

/-- `std::sort` of channel numbers. -/
def sorted (l : List Nat) : List Nat := l.insertionSort (· ≤ ·)

/-- `std::set_intersection( … )` of two sorted lists being non-empty. -/
def intersects (l m : List Nat) : Bool := l.any fun c => m.contains c

/-- The final checks of the channel numbers (`LoudspeakerArray.cpp:524-546`). -/
def checkChannels (lsp sub : List Nat) : Outcome Unit :=
  if hasAdjacent (sorted lsp) then .throw .invalidArgument
  else if hasAdjacent (sorted sub) then .throw .invalidArgument
  else if intersects (sorted lsp) (sorted sub) then .throw .invalidArgument
  else .ok ()

/-- A matrix of zeros (`BasicMatrix::resize`). -/
def zeros [Zero K] (rows columns : Nat) : List (List K) :=
  List.replicate rows (List.replicate columns 0)

/-- The members after resizing (`LoudspeakerArray.cpp:265-303`).  The vector of
positions keeps old contents (`std::vector::resize`); the adjustments are zeroed
(`efl::BasicVector::resize`). -/
def prepared [Zero K] [One K] (a : Arr K) (cfg : Config K) (is2D : Bool) (t : Option (EqTable K))
    (ids : List (Id × Nat)) (channel : List Nat) : Arr K :=
  let n := cfg.loudspeakers.length
  let o := n + cfg.subwoofers.length
  { a with
    is2D := is2D, isInfinite := cfg.infinite.getD false,
    position := resize a.position (n + cfg.virtuals.length) ⟨0, 0, 0, false⟩,
    channel := channel, ids := ids,
    gainAdj := List.replicate o 0, delayAdj := List.replicate o 0,
    reRouting := zeros cfg.virtuals.length n,
    eqs := t.map fun t => List.replicate o (List.replicate t.sections unitSection) }

/-- `LoudspeakerArray::loadXmlStream` (`LoudspeakerArray.cpp:236-547`).  Simplification: the
state of the object after an exception is not modelled. -/
def load [Field K] (cv : Conv K) (a : Arr K) (cfg : Config K) : Outcome (Arr K) := do
  let is2D ← parseDimension cfg.dimension
  let t ← parseEqConfig cfg.eqConfigs
  let s ← cfg.loudspeakers.foldlM register (a.ids, [])
  let a ← cfg.loudspeakers.foldlM (place cv t) (prepared a cfg is2D t s.1 (sorted s.2))
  let a ← (cfg.virtuals.zipIdx cfg.loudspeakers.length).foldlM (placeVirtual cv) a
  let tr ← parseTriplets a.is2D a.ids cfg.triplets
  let a ← cfg.subwoofers.zipIdx.foldlM (placeSub cv t)
    { a with
      triplets := tr,
      subChannels := List.replicate cfg.subwoofers.length 0,
      subGains := zeros cfg.subwoofers.length cfg.loudspeakers.length }
  checkChannels a.channel a.subChannels
  .ok a

/-- `getSpeakerIndexFromId` (`LoudspeakerArray.cpp:598-600`). -/
def Arr.indexOfId (a : Arr K) (id : Id) : Outcome Nat :=
  match find a.ids id with
  | some i => .ok i
  | none => .throw .outOfRange

/-- `loudspeakerId` (`LoudspeakerArray.cpp:583-596`).  Simplification: of several ids with the
same index, the one inserted first is returned instead of the smallest. -/
def Arr.idOfIndex (a : Arr K) (i : Nat) : Outcome Id :=
  match a.ids.find? fun p => p.2 = i with
  | some p => .ok p.1
  | none => .throw .outOfRange

/-- Unchecked element access. -/
def element {α : Type*} (l : List α) (i : Nat) : Outcome α :=
  match l[i]? with
  | some v => .ok v
  | none => .ub

/-- `channelIndex` and `getSpeakerChannel` (`LoudspeakerArray.h:149` and `:165`). -/
def Arr.channelOf (a : Arr K) (i : Nat) : Outcome Nat := element a.channel i

/-- `getSpeakerChannelFromId` (`LoudspeakerArray.h:172`). -/
def Arr.channelOfId (a : Arr K) (id : Id) : Outcome Nat := do
  let i ← a.indexOfId id
  element a.channel i

/-- `getPosition( id )` (`LoudspeakerArray.h:127-129`). -/
def Arr.positionOfId (a : Arr K) (id : Id) : Outcome (XYZ K) := do
  let i ← a.indexOfId id
  element a.position i

end Visr.ArrayConfig
