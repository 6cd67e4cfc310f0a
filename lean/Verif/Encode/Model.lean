import Verif.ObjectVector.Model

/-!
# Writing scene messages

Models
* `/repo/src/libobjectmodel/object_vector_parser.cpp` (`encodeObjectVector`),
* the `write` methods of the object parsers in `/repo/src/libobjectmodel`,
* `/repo/src/libobjectmodel/channel_object_parser.cpp` (text of output labels),
* the "room" part of `/repo/src/libobjectmodel/point_source_with_reverb_parser.cpp` and
  the setters of `point_source_with_reverb.cpp` it uses,
* `/repo/src/librbbl/parametric_iir_coefficient.cpp` (JSON nodes of equaliser settings).

Texts of channel numbers and of output labels are modelled character by character.
Numbers written by `ptree::put` are read back unchanged (`boost::property_tree`
prints enough digits); numbers printed by a `std::stringstream`
(`FloatSequence::toString`) keep six significant digits only, which is the function
`six` below.  JSON syntax itself is `boost::property_tree` and outside the model.
-/

namespace Visr.Encode

open Visr Visr.ObjectVector

/-! ### Equaliser settings -/

/-- `ParametricIirCoefficientBase::Type` (`parametric_iir_coefficient.hpp`). -/
inductive EqType where
  | lowpass
  | highpass
  | bandpass
  | bandstop
  | peak
  | lowshelf
  | highshelf
  | allpass
  deriving DecidableEq

/-- `ParametricIirCoefficient`: one section of an equaliser. -/
structure Section (K : Type) where
  typ : EqType
  f : K
  q : K
  gain : K
  deriving DecidableEq

/-- The node of one section.  `typ` is `none` for a text that names no type. -/
structure SectionTree (K : Type) where
  typ : Entry (Option EqType)
  f : Entry K
  q : Entry K
  gain : Entry K

/-- Arithmetic the serialisation depends on: zero, the test
`std::abs( x ) < numeric_limits::epsilon()`, and the value read back after printing
with six significant digits. -/
structure Num (K : Type) where
  zero : K
  small : K → Bool
  six : K → K

variable {K B : Type}

/-- `ParametricIirCoefficient::writeJson( tree )` (`parametric_iir_coefficient.cpp:282-291`). -/
def writeSection (num : Num K) (s : Section K) : SectionTree K where
  typ := .val (some s.typ)
  f := .val s.f
  q := .val s.q
  gain := if num.small s.gain then .missing else .val s.gain

/-- `ParametricIirCoefficient::loadJson( tree )` (`parametric_iir_coefficient.cpp:200-212`). -/
def loadSection (num : Num K) (t : SectionTree K) : Outcome (Section K) := do
  let ty ← t.typ.get
  let f ← t.f.get
  let q ← t.q.get
  let ty ← (match ty with
    | some ty => .ok ty
    | none => .throw .invalidArgument : Outcome EqType)
  .ok ⟨ty, f, q, t.gain.getD num.zero⟩

/-- `ParametricIirCoefficientList::loadJson( tree )` (`parametric_iir_coefficient.cpp:343-354`):
all children whatever their key. -/
def loadSections (num : Num K) : List (SectionTree K) → Outcome (List (Section K))
  | [] => .ok []
  | t :: ts => do
    let s ← loadSection num t
    let ss ← loadSections num ts
    .ok (s :: ss)

/-- The entry of a node whose contents are read by `load`: an exception of the
reader is an unreadable entry (the callers turn both into `std::invalid_argument`). -/
def entryOf {α : Type} : Outcome α → Entry α
  | .ok a => .val a
  | _ => .malformed

/-- The "eq" node written by `ObjectParser::write` (`object_parser.cpp:74-79`), as the
entry which `ObjectParser::parse` (`object_parser.cpp:45-51`) reads.
`ParametricIirCoefficientList::writeXml` writes the JSON node of every section under
the key "eq" (`parametric_iir_coefficient.cpp:449-457`). -/
def writeEq (num : Num K) (eq : List (Section K)) : Entry (List (Section K)) :=
  if eq.isEmpty then .missing else entryOf (loadSections num (eq.map (writeSection num)))

/-! ### Channel numbers and labels -/

/-- The "channels" text of `ObjectParser::write` (`object_parser.cpp:58-68`). -/
def channelText : List Nat → List Char
  | [] => []
  | [c] => ChannelList.printNat c
  | c :: d :: cs => ChannelList.printNat c ++ ',' :: ' ' :: channelText (d :: cs)

/-- A loudspeaker label, `ChannelObject::OutputChannelId` (`std::string`). -/
abbrev Label := List Char

/-- The characters of `qi::char_("a-zA-Z0-9+-&@+_-")` (`channel_object_parser.cpp:61`).
The range `+-&` is empty because `&` comes before `+`. -/
def isLabelChar (c : Char) : Bool :=
  c.isAlphanum || c = '&' || c = '@' || c = '+' || c = '_' || c = '-'

/-- `operator<<` for the labels of one channel (`channel_object_parser.cpp:127-148`). -/
def labelsText : List Label → List Char
  | [] => ['[', ']']
  | [l] => l
  | l :: ls => '[' :: ' ' :: l ++ (ls.map fun k => ',' :: ' ' :: k).flatten ++ [' ', ']']

/-- `operator<<` for the labels of all channels (`channel_object_parser.cpp:150-162`):
the loop starts at `begin() + 1` even if there is no element. -/
def outputsText : List (List Label) → Outcome (List Char)
  | [] => .ub
  | c :: cs => .ok (labelsText c ++ (cs.map fun d => ',' :: ' ' :: labelsText d).flatten)

/-- Labels separated by commas, `mLabelRule % ','`, at least one; returns the labels
and the rest. -/
def parseLabels (fuel : Nat) (s : List Char) : Option (List Label × List Char) :=
  match fuel with
  | 0 => none
  | fuel + 1 =>
    if (s.takeWhile isLabelChar).isEmpty then none
    else
      match s.dropWhile isLabelChar with
      | ',' :: r =>
        match parseLabels fuel r with
        | some (ls, r') => some (s.takeWhile isLabelChar :: ls, r')
        | none => some ([s.takeWhile isLabelChar], ',' :: r)
      | r => some ([s.takeWhile isLabelChar], r)

/-- `mOutputChannelRule` (`channel_object_parser.cpp:63-64`): a label, or a possibly
empty list of labels in brackets. -/
def parseChannel (s : List Char) : Option (List Label × List Char) :=
  if (s.takeWhile isLabelChar).isEmpty then
    match s with
    | '[' :: r =>
      let lr := (parseLabels (r.length + 1) r).getD ([], r)
      match lr.2 with
      | ']' :: r' => some (lr.1, r')
      | _ => none
    | _ => none
  else some ([s.takeWhile isLabelChar], s.dropWhile isLabelChar)

/-- `mOutputChannelRule % ','`, at least one. -/
def parseChannelList (fuel : Nat) (s : List Char) : Option (List (List Label) × List Char) :=
  match fuel with
  | 0 => none
  | fuel + 1 =>
    match parseChannel s with
    | none => none
    | some (c, r) =>
      match r with
      | ',' :: r' =>
        match parseChannelList fuel r' with
        | some (cs, r'') => some (c :: cs, r'')
        | none => some ([c], r)
      | _ => some ([c], r)

/-- `parseOutputChannels` (`channel_object_parser.cpp:61-90`).  Every terminal of the
grammar is one character, before which the skipper removes spaces, so that parsing
is parsing of the text without spaces.  `fuel` only makes the recursion structural:
it exceeds the number of characters, each step consumes at least one. -/
def parseOutputs (s : List Char) : Outcome (List (List Label)) :=
  let t := s.filter fun c => !ChannelList.isSpace c
  match parseChannelList (t.length + 1) t with
  | none => if t.isEmpty then .ok [] else .throw .invalidArgument
  | some (cs, r) => if r.isEmpty then .ok cs else .throw .invalidArgument

/-! ### Reverberation -/

/-- `DiscreteReflection` (`point_source_with_reverb.hpp:47-151`); `B` is the type of
biquad coefficients. -/
structure Reflection (K B : Type) where
  x : K
  y : K
  z : K
  delay : K
  level : K
  filters : List B
  deriving DecidableEq

/-- The reverberation members of `PointSourceWithReverb`. -/
structure Room (K B : Type) where
  reflections : List (Reflection K B)
  onset : K
  levels : List K
  attacks : List K
  decays : List K
  deriving DecidableEq

/-- The node of one reflection; `filters` is the "biquadsos" list. -/
structure ReflectionTree (K B : Type) where
  position : Option (PosTree K)
  delay : Entry K
  level : Entry K
  filters : Entry (List B)

/-- The "lreverb" node: number lists are the result of `FloatSequence( text )`. -/
structure LateTree (K : Type) where
  delay : Entry K
  levels : Entry (List K)
  attacks : Entry (List K)
  decays : Entry (List K)

/-- The "room" node. -/
structure RoomTree (K B : Type) where
  reflections : Option (List (ReflectionTree K B))
  late : Option (LateTree K)

/-- `cNumberOfSubBands` (`point_source_with_reverb.hpp:36`). -/
def numSubBands : Nat := 9

/-- `cNumDiscreteReflectionBiquads` (`point_source_with_reverb.hpp:43`). -/
def numBiquads : Nat := 10

/-- `setReflectionFilters` (`point_source_with_reverb.cpp:78-95`). -/
def setFilters (flat : B) (fs : List B) : Outcome (List B) :=
  if fs.length > numBiquads then .throw .invalidArgument
  else .ok (fs ++ List.replicate (numBiquads - fs.length) flat)

variable {E R L : Type}

/-- The loop body for one reflection (`point_source_with_reverb_parser.cpp:83-101`). -/
def parseReflection (env : Env K E R L) (flat : B) (t : ReflectionTree K B) :
    Outcome (Reflection K B) := do
  let pos ← (match t.position with
    | some p => parsePosition env p
    | none => .throw .runtimeError)
  let d ← t.delay.get
  let l ← t.level.get
  let fs ← t.filters.get
  let fs ← setFilters flat fs
  .ok ⟨pos.1, pos.2.1, pos.2.2, d, l, fs⟩

/-- The loop over the reflections (`point_source_with_reverb_parser.cpp:78-102`). -/
def parseReflections (env : Env K E R L) (flat : B) :
    List (ReflectionTree K B) → Outcome (List (Reflection K B))
  | [] => .ok []
  | t :: ts => do
    let r ← parseReflection env flat t
    let rs ← parseReflections env flat ts
    .ok (r :: rs)

/-- A list of sub-band values (`point_source_with_reverb_parser.cpp:110-132`). -/
def parseBands (e : Entry (List K)) : Outcome (List K) := do
  let l ← e.get
  if l.length ≠ numSubBands then .throw .invalidArgument else .ok l

/-- The "room" part of `PointSourceWithReverbParser::parse`
(`point_source_with_reverb_parser.cpp:65-132`). -/
def parseRoom (env : Env K E R L) (flat : B) (t : RoomTree K B) : Outcome (Room K B) := do
  let rs ← parseReflections env flat (t.reflections.getD [])
  let late ← (match t.late with
    | some l => .ok l
    | none => .throw .invalidArgument)
  let onset ← late.delay.get
  let levels ← parseBands late.levels
  let attacks ← parseBands late.attacks
  let decays ← parseBands late.decays
  .ok ⟨rs, onset, levels, attacks, decays⟩

/-- The position node written by the parsers: Cartesian coordinates. -/
def writePosition (x y z : K) : PosTree K where
  x := .val x
  y := .val y
  z := .val z
  az := .missing
  el := .missing
  radius := .missing

/-- The node of one reflection (`point_source_with_reverb_parser.cpp:157-170`). -/
def writeReflection (r : Reflection K B) : ReflectionTree K B where
  position := some (writePosition r.x r.y r.z)
  delay := .val r.delay
  level := .val r.level
  filters := .val r.filters

/-- The "room" node of `PointSourceWithReverbParser::write`
(`point_source_with_reverb_parser.cpp:150-194`). -/
def writeRoom (num : Num K) (r : Room K B) : RoomTree K B where
  reflections := if r.reflections.isEmpty then none else some (r.reflections.map writeReflection)
  late := some
    { delay := .val r.onset
      levels := .val (r.levels.map num.six)
      attacks := .val (r.attacks.map num.six)
      decays := .val (r.decays.map num.six) }

/-! ### Objects -/

/-- Objects with concrete equaliser, reverberation and label types. -/
abbrev Object (K B : Type) := Obj K (List (Section K)) (Room K B) Label

/-- Their nodes. -/
abbrev Tree (K B : Type) := ObjTree K (List (Section K)) (Room K B) Label

/-- What the library contributes to reading and writing such objects. -/
structure Ctx (K B : Type) where
  env : Env K (List (Section K)) (Room K B) Label
  num : Num K
  flat : B

variable [DecidableEq K]

/-- `ObjectParser::write` (`object_parser.cpp:54-80`). -/
def writeBase (ctx : Ctx K B) (o : Object K B) : Tree K B where
  typ := .val (some o.typ)
  id := .val o.id
  channels := .val (channelText o.channels)
  group := .val o.group
  level := .val o.level
  priority := .val o.priority
  eq := writeEq ctx.num o.eq
  position := none
  lock := .missing
  diffuseness := .missing
  width := .missing
  height := .missing
  depth := .missing
  az := .missing
  el := .missing
  refdist := .missing
  order := .missing
  outputs := .missing
  room := .missing

/-- `PointSourceParser::write` (`point_source_parser.cpp:45-60`). -/
def writePoint (ctx : Ctx K B) (o : Object K B) : Tree K B :=
  { writeBase ctx o with
    position := some (writePosition o.x o.y o.z)
    lock := if o.lock ≠ ctx.num.zero then .val o.lock else .missing }

/-- `PointSourceWithDiffusenessParser::write`
(`point_source_with_diffuseness_parser.cpp:36-44`). -/
def writePointDiffuse (ctx : Ctx K B) (o : Object K B) : Tree K B :=
  { writePoint ctx o with diffuseness := .val o.diffuseness }

/-- `PointSourceExtentParser::write` (`point_source_extent_parser.cpp:38-48`): it calls
the method of `PointSourceParser`. -/
def writeExtent (ctx : Ctx K B) (o : Object K B) : Tree K B :=
  { writePoint ctx o with
    width := .val o.width
    height := .val o.height
    depth := .val o.depth }

/-- `PointSourceWithReverbParser::write`
(`point_source_with_reverb_parser.cpp:141-195`). -/
def writeReverb (ctx : Ctx K B) (o : Object K B) : Tree K B :=
  { writePoint ctx o with
    room := entryOf (parseRoom ctx.env ctx.flat (writeRoom ctx.num o.reverb)) }

/-- `PlaneWaveParser::write` (`plane_wave_parser.cpp:37-47`). -/
def writePlane (ctx : Ctx K B) (o : Object K B) : Tree K B :=
  { writeBase ctx o with
    az := .val o.az
    el := .val o.el
    refdist := .val o.refdist }

/-- `HoaSourceParser::write` (`hoa_source_parser.cpp:40-48`). -/
def writeHoa (ctx : Ctx K B) (o : Object K B) : Tree K B :=
  { writeBase ctx o with order := .val o.order }

/-- `ChannelObjectParser::write` (`channel_object_parser.cpp:166-186`). -/
def writeChannelObject (ctx : Ctx K B) (o : Object K B) : Outcome (Tree K B) :=
  if o.channels.length ≠ o.outputs.length then .throw .invalidArgument
  else do
    let text ← outputsText o.outputs
    .ok { writeBase ctx o with
      diffuseness := if o.diffuseness ≠ ctx.num.zero then .val o.diffuseness else .missing
      outputs := entryOf (parseOutputs text) }

/-- `ObjectFactory::parser( obj.type() ).write( obj, objTree )`. -/
def writeObject (ctx : Ctx K B) (o : Object K B) : Outcome (Tree K B) :=
  match o.typ with
  | .point => .ok (writePoint ctx o)
  | .pointExtent => .ok (writeExtent ctx o)
  | .plane => .ok (writePlane ctx o)
  | .diffuse => .ok (writeBase ctx o)
  | .pointDiffuse => .ok (writePointDiffuse ctx o)
  | .extended => .throw .invalidArgument
  | .hoa => .ok (writeHoa ctx o)
  | .channel => writeChannelObject ctx o
  | .pointReverb => .ok (writeReverb ctx o)

/-- The loop of `encodeObjectVector` over the objects
(`object_vector_parser.cpp:128-137`). -/
def writeObjects (ctx : Ctx K B) : List (Object K B) → Outcome (List (Tree K B))
  | [] => .ok []
  | o :: os => do
    let t ← writeObject ctx o
    let ts ← writeObjects ctx os
    .ok (t :: ts)

/-- `encodeObjectVector( objects, message )` (`object_vector_parser.cpp:123-141`): the
message, with an "objects" node. -/
def encodeObjectVector (ctx : Ctx K B) (v : List (Object K B)) :
    Outcome (Message K (List (Section K)) (Room K B) Label) := do
  let ts ← writeObjects ctx v
  .ok (some (some ts))

end Visr.Encode
