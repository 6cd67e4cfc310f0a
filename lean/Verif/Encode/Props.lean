import Verif.Encode.Lemmas

/-!
# C52: scene messages written by the library describe the scene
-/

namespace Visr.Encode

open Visr Visr.ObjectVector

set_option linter.unusedSectionVars false

variable {K B : Type} [DecidableEq K]

theorem writeObjects_ok (ctx : Ctx K B) (hctx : ctx.Good) (v : List (Object K B))
    (h : ∀ o ∈ v, Encodable ctx o) :
    ∃ ts, writeObjects ctx v = .ok ts ∧
      List.Forall₂ (fun o t => writeObject ctx o = .ok t) v ts := by
  induction v with
  | nil => exact ⟨[], rfl, .nil⟩
  | cons o v ih =>
    obtain ⟨ts, h1, h2⟩ := ih (fun x hx => h x (List.mem_cons_of_mem _ hx))
    obtain ⟨t, _, ht, -⟩ := parse_write ctx hctx o o (h o (by simp)) (h o (by simp)).plain rfl rfl
    exact ⟨t :: ts, by simp only [writeObjects, ht, Outcome.ok_bind, h1], .cons ht h2⟩

theorem plain_create (env : Env K (List (Section K)) (Room K B) Label) (ty : ObjType) (id : Nat) :
    Plain env (create env ty id) := by
  constructor <;> intros <;> simp [create]

/-- The object a node is applied to. -/
theorem parseObject_write (ctx : Ctx K B) (hctx : ctx.Good) (o : Object K B)
    (h : Encodable ctx o) (w : List (Object K B)) (hw : ∀ p ∈ w, Plain ctx.env p) (t : Tree K B)
    (ht : writeObject ctx o = .ok t) :
    asInvalid (parseObject ctx.env t w) = .ok (ObjectVector.insert w o) := by
  have key : ∀ o0 : Object K B, Plain ctx.env o0 → o0.id = o.id → o0.typ = o.typ →
      ∃ parser, parserFor o.typ = .ok parser ∧ parser ctx.env t o0 = .ok o ∧
        t.typ = .val (some o.typ) ∧ t.id = .val o.id := by
    intro o0 h0 hid hty
    obtain ⟨t', parser, e1, e2, e3, e4, e5⟩ := parse_write ctx hctx o o0 h h0 hid hty
    rw [ht, Outcome.ok.injEq] at e1
    subst e1
    exact ⟨parser, e4, e5, e2, e3⟩
  have hstart : ∃ o0 : Object K B, Plain ctx.env o0 ∧ o0.id = o.id ∧ o0.typ = o.typ ∧
      (match find w o.id with
        | some p => if p.typ = o.typ then p else create ctx.env o.typ o.id
        | none => create ctx.env o.typ o.id) = o0 := by
    cases hf : find w o.id with
    | none => exact ⟨_, plain_create _ _ _, rfl, rfl, rfl⟩
    | some p =>
      simp only
      split_ifs with hp
      · exact ⟨p, hw p (List.mem_of_find?_eq_some hf), find_id hf, hp, rfl⟩
      · exact ⟨_, plain_create _ _ _, rfl, rfl, rfl⟩
  obtain ⟨o0, h0, hid, hty, he⟩ := hstart
  obtain ⟨parser, e1, e2, e3, e4⟩ := key o0 h0 hid hty
  have : parseObject ctx.env t w = .ok (ObjectVector.insert w o) := by
    simp only [parseObject, e3, e4, Entry.get, Outcome.ok_bind, e1]
    refine (congrArg (fun x => parser ctx.env t x >>= fun obj' =>
      Outcome.ok (ObjectVector.insert w obj')) (?_ : _ = o0)).trans ?_
    · rw [← he]; cases find w o.id <;> rfl
    · simp only [e2, Outcome.ok_bind]
  rw [this]; rfl

theorem mem_insert {o p : Object K B} {w : List (Object K B)} (h : p ∈ ObjectVector.insert w o) :
    p = o ∨ p ∈ w := by
  simp only [ObjectVector.insert] at h
  split_ifs at h
  · rcases mem_setInsert h with e | e
    · exact .inl e
    · exact .inr ((List.mem_filter.mp e).1)
  · exact mem_setInsert h

theorem updateLoop_write (ctx : Ctx K B) (hctx : ctx.Good) (v : List (Object K B))
    (ts : List (Tree K B)) (hv : ∀ o ∈ v, Encodable ctx o)
    (hts : List.Forall₂ (fun o t => writeObject ctx o = .ok t) v ts)
    (w : List (Object K B)) (hw : ∀ p ∈ w, Plain ctx.env p) :
    updateLoop ctx.env ts w = (.ok (), v.foldl ObjectVector.insert w) := by
  induction hts generalizing w with
  | nil => rfl
  | @cons o t v ts ht _ ih =>
    rw [updateLoop, parseObject_write ctx hctx o (hv o (by simp)) w hw t ht]
    refine ih (fun x hx => hv x (List.mem_cons_of_mem _ hx)) (ObjectVector.insert w o) ?_
    intro p hp
    rcases mem_insert hp with rfl | hp
    · exact (hv p (by simp)).plain
    · exact hw p hp

theorem find_foldl (v w : List (Object K B)) (hv : Ascending v) (id : Nat) :
    find (v.foldl ObjectVector.insert w) id = (find v id).or (find w id) := by
  induction v generalizing w with
  | nil => rfl
  | cons o v ih =>
    rw [Ascending, List.pairwise_cons] at hv
    rw [List.foldl_cons, ih (ObjectVector.insert w o) hv.2, find_insert, find_cons]
    by_cases he : o.id = id
    · have hn : find v id = none := by
        rw [find, List.find?_eq_none]
        intro p hp
        have := hv.1 p hp
        simp only [beq_iff_eq]; omega
      rw [hn, if_pos he, if_pos he.symm]; rfl
    · rw [if_neg he, if_neg (fun x => he x.symm)]

theorem ascending_foldl (v w : List (Object K B)) (hw : Ascending w) :
    Ascending (v.foldl ObjectVector.insert w) := by
  induction v generalizing w with
  | nil => exact hw
  | cons o v ih => exact ih _ (ascending_insert hw o)

/-- Two vectors in ascending order of ids with the same contents are equal. -/
theorem ascending_ext {v w : List (Object K B)} (hv : Ascending v) (hw : Ascending w)
    (h : ∀ id, find v id = find w id) : v = w := by
  induction v generalizing w with
  | nil =>
    cases w with
    | nil => rfl
    | cons p w => have := h p.id; rw [find_nil, find_cons, if_pos rfl] at this; simp at this
  | cons o v ih =>
    cases w with
    | nil => have := h o.id; rw [find_nil, find_cons, if_pos rfl] at this; simp at this
    | cons p w =>
      rw [Ascending, List.pairwise_cons] at hv hw
      have ho := h o.id
      have hp := h p.id
      rw [find_cons, find_cons, if_pos rfl] at ho
      rw [find_cons, find_cons, if_pos (rfl : p.id = p.id)] at hp
      have hid : o.id = p.id := by
        by_contra hne
        rw [if_neg (fun x => hne x.symm)] at ho
        rw [if_neg hne] at hp
        have m1 := List.mem_of_find?_eq_some ho.symm
        have m2 := List.mem_of_find?_eq_some hp
        have := hw.1 o m1; have := hv.1 p m2
        omega
      rw [if_pos hid.symm, Option.some.injEq] at ho
      subst ho
      congr 1
      refine ih hv.2 hw.2 (fun id => ?_)
      by_cases he : o.id = id
      · have n1 : find v id = none := by
          rw [find, List.find?_eq_none]; intro q hq; have := hv.1 q hq
          simp only [beq_iff_eq]; omega
        have n2 : find w id = none := by
          rw [find, List.find?_eq_none]; intro q hq; have := hw.1 q hq
          simp only [beq_iff_eq]; omega
        rw [n1, n2]
      · have := h id
        rwa [find_cons, find_cons, if_neg he, if_neg he] at this

/-! ### C52 -/

/-- C52 (for representable objects): encoding a scene always succeeds, and a receiver
that applies the message to whatever scene `w` it has then holds exactly the encoded
object for every id of the encoded scene and its old object for every other id.
Missing: point sources with extent and the other values listed in `Encodable`, for
which the claim is false (theorems below). -/
theorem encode_update_partial (ctx : Ctx K B) (hctx : ctx.Good) (v w : List (Object K B))
    (hv : Ascending v) (hw : Ascending w) (he : ∀ o ∈ v, Encodable ctx o)
    (hp : ∀ p ∈ w, Plain ctx.env p) :
    ∃ m w', encodeObjectVector ctx v = .ok m ∧ updateObjectVector ctx.env m w = (.ok (), w') ∧
      Ascending w' ∧ ∀ id, find w' id = (find v id).or (find w id) := by
  obtain ⟨ts, h1, h2⟩ := writeObjects_ok ctx hctx v he
  refine ⟨some (some ts), v.foldl ObjectVector.insert w, by simp only [encodeObjectVector, h1, Outcome.ok_bind],
    updateLoop_write ctx hctx v ts he h2 w hp, ascending_foldl v w hw, find_foldl v w hv⟩

/-- C52 (for representable objects): a receiver that replaces its scene by the message
holds exactly the encoded scene. -/
theorem encode_fill_partial (ctx : Ctx K B) (hctx : ctx.Good) (v res : List (Object K B))
    (hv : Ascending v) (he : ∀ o ∈ v, Encodable ctx o) :
    ∃ m, encodeObjectVector ctx v = .ok m ∧ fillObjectVector ctx.env m res = (.ok (), v) := by
  obtain ⟨m, w', h1, h2, h3, h4⟩ := encode_update_partial ctx hctx v [] hv List.Pairwise.nil he
    (by simp)
  refine ⟨m, h1, ?_⟩
  have : w' = v := ascending_ext h3 hv (fun id => by rw [h4]; cases find v id <;> rfl)
  simp only [fillObjectVector, h2, this]

theorem loadSections_some (num : Num K) (eq : List (Section K)) :
    ∃ l, loadSections num (eq.map (writeSection num)) = .ok l := by
  induction eq with
  | nil => exact ⟨[], rfl⟩
  | cons s ss ih =>
    obtain ⟨l, hl⟩ := ih
    refine ⟨⟨s.typ, s.f, s.q, (writeSection num s).gain.getD num.zero⟩ :: l, ?_⟩
    simp only [List.map_cons, loadSections, hl, loadSection, writeSection, Entry.get,
      Outcome.ok_bind]

/-- C52, negation: a point source with extent is written without its diffuseness,
which is required for reading: the message of a scene that consists of one is
refused, and the receiver keeps its old scene. -/
theorem extent_not_readable (ctx : Ctx K B) (o : Object K B) (ho : o.typ = .pointExtent)
    (hc : ∀ c ∈ o.channels, c < 2 ^ 31) (res : List (Object K B)) :
    ∃ m, encodeObjectVector ctx [o] = .ok m ∧
      fillObjectVector ctx.env m res = (.throw .invalidArgument, res) := by
  have hw : encodeObjectVector ctx [o] = .ok (some (some [writeExtent ctx o])) := by
    simp only [encodeObjectVector, writeObjects, writeObject, ho, Outcome.ok_bind]
  refine ⟨_, hw, ?_⟩
  have hb : ∀ o0 : Object K B, ∃ o1, parsePoint ctx.env (writeExtent ctx o) o0 = .ok o1 := by
    intro o0
    obtain ⟨l, hl⟩ := loadSections_some ctx.num o.eq
    have h2 : parseChannels (writeExtent ctx o) o0 = .ok { o0 with
        channels := (o.channels.map fun n : Nat => (n : Int)).map Int.toNat } := by
      simp only [parseChannels, writeExtent, writePoint, writeBase, Entry.get, Outcome.ok_bind,
        parse_channelText _ hc]
    have h3 : ∃ o1, parseBase ctx.env (writeExtent ctx o) o0 = .ok o1 := by
      simp only [parseBase, h2, Outcome.ok_bind]
      simp only [writeExtent, writePoint, writeBase, Entry.get, Outcome.ok_bind, writeEq, hl]
      by_cases he : o.eq.isEmpty = true
      · simp only [if_pos he, Entry.present, Bool.false_eq_true, if_false, Outcome.ok_bind]
        exact ⟨_, rfl⟩
      · simp only [if_neg he, Entry.present, entryOf, if_true, Entry.get, Outcome.ok_bind]
        exact ⟨_, rfl⟩
    obtain ⟨o1, h3⟩ := h3
    simp only [parsePoint, h3, Outcome.ok_bind]
    simp only [writeExtent, writePoint, parsePosition_write, Outcome.ok_bind, asInvalid]
    exact ⟨_, rfl⟩
  have hd : (writeExtent ctx o).diffuseness = .missing := rfl
  have ht : (writeExtent ctx o).typ = .val (some .pointExtent) := by
    show Entry.val (some o.typ) = _; rw [ho]
  have hi : (writeExtent ctx o).id = .val o.id := rfl
  obtain ⟨o1, h1⟩ := hb (create ctx.env .pointExtent o.id)
  simp only [fillObjectVector, updateObjectVector, updateLoop, parseObject, ht, hi, Entry.get,
    Outcome.ok_bind, parserFor, find_nil, parseExtent, parsePointDiffuse, h1, hd]
  rfl

/-- C52: the diffuseness is all that is missing in the message of a point source with extent: with that entry added,
reading the node gives back the object. -/
theorem extent_lacks_only_diffuseness (ctx : Ctx K B) (hctx : ctx.Good) (o : Object K B) (ho : o.typ = .pointExtent)
    (hp : Plain ctx.env o) (hc : ∀ c ∈ o.channels, c < 2 ^ 31)
    (heq : ∀ s ∈ o.eq, ctx.num.small s.gain = true → s.gain = ctx.num.zero) :
    ∃ t, encodeObjectVector ctx [o] = .ok (some (some [t])) ∧ t.diffuseness = .missing ∧
      parseObject ctx.env { t with diffuseness := .val o.diffuseness } [] = .ok [o] := by
  refine ⟨writeExtent ctx o, by simp only [encodeObjectVector, writeObjects, writeObject, ho, Outcome.ok_bind], rfl, ?_⟩
  have henc : Encodable ctx { o with
      typ := .point, diffuseness := ctx.env.zero, width := ctx.env.zero, height := ctx.env.zero, depth := ctx.env.zero,
      az := ctx.env.zero, el := ctx.env.zero, refdist := ctx.env.zero, order := 0, outputs := [],
      reverb := ctx.env.reverb0 } :=
    ⟨by constructor <;> simp, by simp, hc, heq, by simp, by simp, by simp⟩
  have h1 := parsePoint_write ctx hctx _ (create ctx.env .pointExtent o.id) henc
    { writeExtent ctx o with diffuseness := .val o.diffuseness } rfl rfl rfl rfl rfl rfl rfl
  have p4 := hp.plane (by rw [ho]; decide)
  have p5 := hp.hoa (by rw [ho]; decide)
  have p6 := hp.channel (by rw [ho]; decide)
  have p7 := hp.reverb (by rw [ho]; decide)
  simp only [parseObject, writeExtent, writePoint, writeBase, ho, Entry.get, Outcome.ok_bind, parserFor, find_nil,
    parseExtent, parsePointDiffuse] at h1 ⊢
  rw [h1]
  simp only [Outcome.ok_bind, asInvalid, create, ObjectVector.insert, Entry.getD]
  obtain ⟨id, typ, channels, group, level, priority, eq, x, y, z, lock, diffuseness, width, height,
    depth, az, el, refdist, order, outputs, reverb⟩ := o
  simp_all [find_nil, setInsert]

/-- C52: reflections with fewer than ten filter sections are filled up with flat sections at the end, those with more are
refused. -/
theorem reflection_filters (env : Env K (List (Section K)) (Room K B) Label) (flat : B) (r : Reflection K B) :
    (r.filters.length ≤ 10 → ∃ r', parseReflection env flat (writeReflection r) = .ok r' ∧
      { r' with filters := r.filters } = r ∧ r'.filters.length = 10 ∧
      ∀ i < 10, r'.filters[i]? = some (r.filters.getD i flat)) ∧
    (10 < r.filters.length → parseReflection env flat (writeReflection r) = .throw .invalidArgument) := by
  constructor
  · intro h
    have hs : setFilters flat r.filters = .ok (r.filters ++ List.replicate (10 - r.filters.length) flat) := by
      unfold setFilters
      rw [if_neg (by simp only [numBiquads]; omega)]
      rfl
    refine ⟨{ r with filters := r.filters ++ List.replicate (10 - r.filters.length) flat }, ?_, rfl, ?_, ?_⟩
    · simp only [parseReflection, writeReflection, parsePosition_write, Outcome.ok_bind, Entry.get, hs]
    · simp only [List.length_append, List.length_replicate]
      omega
    · intro i hi
      by_cases hlt : i < r.filters.length
      · simp [List.getElem?_append, hlt]
      · have hlt2 : i - r.filters.length < 10 - r.filters.length := by omega
        simp [List.getElem?_append, hlt, hlt2]
  · intro h
    have hs : setFilters flat r.filters = .throw .invalidArgument := by
      unfold setFilters
      rw [if_pos (by simp only [numBiquads]; omega)]
    simp only [parseReflection, writeReflection, parsePosition_write, Outcome.ok_bind, Entry.get, hs]
    rfl

/-- C52, negation: a channel object without channels cannot be written at all
(undefined behaviour). -/
theorem empty_channel_object_ub (ctx : Ctx K B) (o : Object K B) (ho : o.typ = .channel)
    (h1 : o.channels = []) (h2 : o.outputs = []) : encodeObjectVector ctx [o] = .ub := by
  simp only [encodeObjectVector, writeObjects, writeObject, ho, writeChannelObject, h1, h2,
    List.length_nil, ne_eq, not_true_eq_false, if_false, outputsText]
  rfl

/-- C52: a channel object whose numbers of channels and of output label lists differ
is refused when it is written. -/
theorem inconsistent_channel_object_throws (ctx : Ctx K B) (o : Object K B) (ho : o.typ = .channel)
    (h : o.channels.length ≠ o.outputs.length) :
    encodeObjectVector ctx [o] = .throw .invalidArgument := by
  simp only [encodeObjectVector, writeObjects, writeObject, ho, writeChannelObject, if_pos h]
  rfl

/-- The equaliser gain below the machine epsilon is not written. -/
theorem small_gain_lost (num : Num K) (s : Section K) (h : num.small s.gain = true) :
    writeEq num [s] = .val [{ s with gain := num.zero }] := by
  simp only [writeEq, List.isEmpty_cons, Bool.false_eq_true, if_false, List.map_cons, List.map_nil,
    loadSections, loadSection, writeSection, Entry.get, Outcome.ok_bind, if_pos h, Entry.getD,
    entryOf]

/-- Late reverberation values are written with six significant digits: the
reverberation read back has the rounded ones. -/
theorem late_values_rounded (env : Env K (List (Section K)) (Room K B) Label) (num : Num K) (flat : B)
    (r : Room K B) (h1 : ∀ x ∈ r.reflections, x.filters.length = 10)
    (h2 : r.levels.length = 9) (h3 : r.attacks.length = 9) (h4 : r.decays.length = 9) :
    parseRoom env flat (writeRoom num r) = .ok
      { r with
        levels := r.levels.map num.six
        attacks := r.attacks.map num.six
        decays := r.decays.map num.six } := by
  have hr : (writeRoom num r).reflections.getD [] = r.reflections.map writeReflection := by
    simp only [writeRoom]
    by_cases he : r.reflections.isEmpty = true
    · rw [if_pos he]; rw [List.isEmpty_iff] at he; simp [he]
    · rw [if_neg he]; rfl
  simp only [parseRoom, hr, parseReflections_write env flat r.reflections h1, Outcome.ok_bind]
  simp only [writeRoom, Outcome.ok_bind, Entry.get]
  rw [parseBands_val _ (by simpa using h2), parseBands_val _ (by simpa using h3),
    parseBands_val _ (by simpa using h4)]
  rfl

/-! ### Concrete cases -/

/-- Numbers for the examples: integers in millionths; six digits are not enough for
numbers from a million. -/
def exNum : Num Int := ⟨0, fun x => decide (x.natAbs < 1), fun x => if x.natAbs < 1000000 then x else x / 10 * 10⟩

def exCtx : Ctx Int Nat := ⟨⟨0, 1, [], ⟨[], 0, [], [], []⟩, fun a e r => (a, e, r)⟩, exNum, 1⟩

def exBase (id : Nat) (ty : ObjType) : Object Int Nat :=
  { create exCtx.env ty id with channels := [3, 12], level := 7 }

/-- A scene with a point source with an equaliser, a plane wave, a higher-order source, a
channel object and a source with reverberation. -/
def exScene : List (Object Int Nat) :=
  [ { exBase 1 .point with x := 1, y := 2, z := 3, lock := 4, eq := [⟨.peak, 100, 2, 3⟩, ⟨.lowpass, 50, 1, 0⟩] },
    { exBase 2 .plane with az := 30, el := 10, refdist := 5 },
    { exBase 5 .hoa with channels := [0, 1, 2, 3], order := 1 },
    { exBase 9 .channel with outputs := [["M+030".toList], ["B".toList, "C".toList]], diffuseness := 1 },
    { exBase 12 .pointReverb with
      x := 1
      reverb := ⟨[⟨1, 2, 3, 4, 5, List.replicate 10 8⟩], 2, List.replicate 9 3, List.replicate 9 4, List.replicate 9 5⟩ } ]

theorem exScene_encodable : ∀ o ∈ exScene, Encodable exCtx o := by
  have hp : ∀ o ∈ exScene, Plain exCtx.env o := by
    intro o ho
    simp only [exScene, List.mem_cons, List.not_mem_nil, or_false] at ho
    rcases ho with rfl | rfl | rfl | rfl | rfl <;> constructor <;> decide
  intro o ho
  have hpo := hp o ho
  simp only [exScene, List.mem_cons, List.not_mem_nil, or_false] at ho
  rcases ho with rfl | rfl | rfl | rfl | rfl
  · exact ⟨hpo, by decide, by decide, by decide, by decide, (by intro h; cases h), (by intro h; cases h)⟩
  · exact ⟨hpo, by decide, by decide, by decide, by decide, (by intro h; cases h), (by intro h; cases h)⟩
  · exact ⟨hpo, by decide, by decide, by decide, by decide, (by intro h; cases h), (by intro h; cases h)⟩
  · refine ⟨hpo, by decide, by decide, by decide, by decide, fun _ => ⟨by decide, by decide, ?_⟩,
      by intro h; cases h⟩
    simp only [GoodLabel]
    decide
  · refine ⟨hpo, by decide, by decide, by decide, by decide, (by intro h; cases h), fun _ => ?_⟩
    exact ⟨by decide, by decide, by decide, by decide⟩

/-- Non-vacuity: the scene above survives being written and read. -/
example (res : List (Object Int Nat)) :
    ∃ m, encodeObjectVector exCtx exScene = .ok m ∧
      fillObjectVector exCtx.env m res = (.ok (), exScene) :=
  encode_fill_partial exCtx ⟨rfl, rfl⟩ exScene res (by simp [exScene, Ascending, exBase, create]) exScene_encodable

/-- Non-vacuity: applied to a scene with another object, that object stays. -/
example : ∃ m w', encodeObjectVector exCtx exScene = .ok m ∧
    updateObjectVector exCtx.env m [exBase 2 .point, exBase 7 .diffuse] = (.ok (), w') ∧
    find w' 7 = some (exBase 7 .diffuse) ∧ find w' 2 = some { exBase 2 .plane with az := 30, el := 10, refdist := 5 } := by
  obtain ⟨m, w', h1, h2, h3, h4⟩ := encode_update_partial exCtx ⟨rfl, rfl⟩ exScene
    [exBase 2 .point, exBase 7 .diffuse] (by simp [exScene, Ascending, exBase, create])
    (by simp [Ascending, exBase, create]) exScene_encodable
    (by
      intro p hp
      simp only [List.mem_cons, List.not_mem_nil, or_false] at hp
      rcases hp with rfl | rfl <;> constructor <;> decide)
  refine ⟨m, w', h1, h2, ?_, ?_⟩
  · rw [h4]; decide
  · rw [h4]; decide

/-- C52, negation: an index that was never set (`UINT_MAX`) is written but not read;
the object then has no channels, and nothing reports it to the caller. -/
theorem unset_channel_lost : ∃ m,
    encodeObjectVector exCtx [{ exBase 1 .diffuse with channels := [4294967295] }] = .ok m ∧
    fillObjectVector exCtx.env m [] = (.ok (), [{ exBase 1 .diffuse with channels := [] }]) := by
  refine ⟨_, rfl, ?_⟩
  have hi : ChannelList.parseInt (channelText [4294967295]) = none := by
    have h := ChannelList.readDigits_print_end 4294967295 (r := []) ChannelList.noDigit_nil
    obtain ⟨c, cs, hc, hd⟩ := ChannelList.printNat_cons 4294967295
    rw [List.append_nil] at h
    have h1 : ChannelList.skipWs (ChannelList.printNat 4294967295) = ChannelList.printNat 4294967295 := by
      rw [hc, ChannelList.skipWs_cons (ChannelList.isSpace_of_digit hd)]
    have h2 : ChannelList.readSign (ChannelList.printNat 4294967295) = (false, ChannelList.printNat 4294967295) := by
      rw [hc, ChannelList.readSign, if_neg (ChannelList.ne_of_digit hd (by decide)),
        if_neg (ChannelList.ne_of_digit hd (by decide))]
    simp only [channelText, ChannelList.parseInt, h1, h2, h]
    split
    · rfl
    · rw [if_neg (by decide)]
  have hg : ChannelList.parseGroup (channelText [4294967295]) = none := by
    rw [ChannelList.parseGroup]
    split
    · rfl
    · rename_i h; rw [hi] at h; simp at h
  have hgs : ChannelList.parseGroups (channelText [4294967295]) = none := by
    rw [ChannelList.parseGroups]
    split
    · rfl
    · rename_i h; rw [hg] at h; simp at h
  have hp : ChannelList.parse (channelText [4294967295]) = .throw .invalidArgument := by
    simp only [ChannelList.parse, hgs]
    obtain ⟨c, cs, hc, hd⟩ := ChannelList.printNat_cons 4294967295
    rw [if_neg]
    simp only [channelText]
    rw [hc, ChannelList.skipWs_cons (ChannelList.isSpace_of_digit hd)]
    simp
  simp only [fillObjectVector, updateObjectVector, updateLoop, parseObject, writeBase, Entry.get,
    Outcome.ok_bind, exBase, create, parserFor, find_nil, parseDiffuse, parseBase, parseChannels, hp,
    writeEq, Entry.present, asInvalid]
  rfl

/-- C52, negation: a label with a space or a dot is written but changed or refused. -/
theorem bad_labels :
    (∃ s, outputsText [["A B".toList]] = .ok s ∧ parseOutputs s = .ok [["AB".toList]]) ∧
    (∃ s, outputsText [["A.B".toList]] = .ok s ∧ parseOutputs s = .throw .invalidArgument) := by
  exact ⟨⟨_, rfl, by decide⟩, ⟨_, rfl, by decide⟩⟩

/-- C52, negation: a late reverberation level with more than six digits is changed. -/
theorem late_level_changed : ∃ r : Room Int Nat, parseRoom exCtx.env exCtx.flat (writeRoom exNum r) ≠ .ok r ∧
    (parseRoom exCtx.env exCtx.flat (writeRoom exNum r)).isOk = true := by
  refine ⟨⟨[], 0, List.replicate 9 1234567, List.replicate 9 0, List.replicate 9 0⟩, ?_⟩
  rw [late_values_rounded _ _ _ _ (by decide) (by decide) (by decide) (by decide)]
  exact ⟨by decide, rfl⟩

end Visr.Encode
