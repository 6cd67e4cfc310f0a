import Verif.Encode.Spec
import Verif.ChannelList.Lemmas
import Verif.ObjectVector.Props

namespace Visr.Encode

open Visr Visr.ObjectVector

variable {K B : Type}

/-! ### Channels -/

theorem parseInt_space (s : List Char) : ChannelList.parseInt (' ' :: s) = ChannelList.parseInt s := by
  have h : ChannelList.skipWs (' ' :: s) = ChannelList.skipWs s := by
    rw [ChannelList.skipWs, if_pos (by decide)]
  simp only [ChannelList.parseInt, h]

theorem parseInt_num (c : Nat) (h : c < 2 ^ 31) {r : List Char} (hr : ChannelList.GroupEnd r) :
    ChannelList.parseInt (ChannelList.printNat c ++ r) = some ((c : Int), r) :=
  ChannelList.parseInt_printNat c hr.noDigit (by rw [ChannelList.intMax_eq]; omega)

theorem expand_one (c : Nat) : ChannelList.expandGroup [(c : Int)] = .ok [(c : Int)] := by
  simp [ChannelList.expandGroup]

theorem channelText_cons (c : Nat) (cs : List Nat) :
    ∃ r, ChannelList.GroupEnd r ∧ channelText (c :: cs) = ChannelList.printNat c ++ r ∧
      r = (match cs with | [] => [] | d :: ds => ',' :: ' ' :: channelText (d :: ds)) := by
  cases cs with
  | nil => exact ⟨[], .inl rfl, by simp [channelText], rfl⟩
  | cons d ds => exact ⟨_, .inr ⟨_, rfl⟩, by simp only [channelText], rfl⟩

theorem parseGroups_channelText (c : Nat) (cs : List Nat) (h : ∀ x ∈ c :: cs, x < 2 ^ 31) :
    ∀ pre ∈ [[], [' ']], ChannelList.parseGroups (pre ++ channelText (c :: cs)) =
      some (.ok ((c :: cs).map fun n : Nat => (n : Int)), []) := by
  induction cs generalizing c with
  | nil =>
    intro pre hpre
    have hi := parseInt_num c (h c (by simp)) (r := []) (.inl rfl)
    have hi' : ChannelList.parseInt (pre ++ channelText [c]) = some ((c : Int), []) := by
      simp only [List.mem_cons, List.not_mem_nil, or_false] at hpre
      rcases hpre with rfl | rfl
      · simpa [channelText] using hi
      · show ChannelList.parseInt (' ' :: channelText [c]) = _
        rw [parseInt_space]; simpa [channelText] using hi
    have hg := ChannelList.parseGroup_last hi' (.inl rfl)
    exact ChannelList.parseGroups_last hg (expand_one c) rfl
  | cons d ds ih =>
    intro pre hpre
    have hi := parseInt_num c (h c (by simp)) (r := ',' :: ' ' :: channelText (d :: ds)) (.inr ⟨_, rfl⟩)
    have hi' : ChannelList.parseInt (pre ++ channelText (c :: d :: ds)) =
        some ((c : Int), ',' :: ' ' :: channelText (d :: ds)) := by
      simp only [List.mem_cons, List.not_mem_nil, or_false] at hpre
      rcases hpre with rfl | rfl
      · rw [List.nil_append]; simpa only [channelText] using hi
      · show ChannelList.parseInt (' ' :: channelText (c :: d :: ds)) = _
        rw [parseInt_space]; simpa only [channelText] using hi
    have hg := ChannelList.parseGroup_last hi' (.inr ⟨_, rfl⟩)
    have := ChannelList.parseGroups_more hg (expand_one c)
      (ih d (fun x hx => h x (List.mem_cons_of_mem _ hx)) [' '] (by simp))
    rw [this]
    rfl

theorem parse_channelText (cs : List Nat) (h : ∀ x ∈ cs, x < 2 ^ 31) :
    ChannelList.parse (channelText cs) = .ok (cs.map fun n : Nat => (n : Int)) := by
  cases cs with
  | nil =>
    have h0 : ChannelList.parseInt [] = none := by decide
    have h1 : ChannelList.parseGroup [] = none := by
      rw [ChannelList.parseGroup]
      split
      · rfl
      · rename_i h; rw [h0] at h; simp at h
    have h2 : ChannelList.parseGroups [] = none := by
      rw [ChannelList.parseGroups]
      split
      · rfl
      · rename_i h; rw [h1] at h; simp at h
    simp [channelText, ChannelList.parse, h2, ChannelList.skipWs]
  | cons c cs =>
    have := parseGroups_channelText c cs h [] (by simp)
    rw [List.nil_append] at this
    simp [ChannelList.parse, this, ChannelList.skipWs]

/-! ### Labels -/

/-- A text that does not continue a label. -/
def Stop (r : List Char) : Prop := r = [] ∨ ∃ c r', r = c :: r' ∧ isLabelChar c = false

theorem takeWhile_label {l r : List Char} (h : ∀ c ∈ l, isLabelChar c = true) (hr : Stop r) :
    (l ++ r).takeWhile isLabelChar = l ∧ (l ++ r).dropWhile isLabelChar = r := by
  induction l with
  | nil =>
    rcases hr with rfl | ⟨c, r', rfl, hc⟩
    · exact ⟨rfl, rfl⟩
    · simp [List.takeWhile, List.dropWhile, hc]
  | cons a l ih =>
    obtain ⟨h1, h2⟩ := ih (fun c hc => h c (List.mem_cons_of_mem _ hc))
    have ha := h a (by simp)
    simp only [List.cons_append, List.takeWhile, List.dropWhile, ha]
    exact ⟨by rw [h1], h2⟩

theorem stop_comma (r : List Char) : Stop (',' :: r) := .inr ⟨_, _, rfl, by decide⟩
theorem stop_close (r : List Char) : Stop (']' :: r) := .inr ⟨_, _, rfl, by decide⟩

/-- Text of labels without spaces. -/
def joined : List Label → List Char
  | [] => []
  | [l] => l
  | l :: k :: ls => l ++ ',' :: joined (k :: ls)

theorem parseLabels_joined (l : Label) (ls : List Label) (h : ∀ x ∈ l :: ls, GoodLabel x)
    (r : List Char) (fuel : Nat) (hf : ls.length < fuel) :
    parseLabels fuel (joined (l :: ls) ++ ']' :: r) = some (l :: ls, ']' :: r) := by
  induction ls generalizing l fuel with
  | nil =>
    cases fuel with
    | zero => simp at hf
    | succ fuel =>
      obtain ⟨h1, h2⟩ := takeWhile_label (h l (by simp)).2 (stop_close r)
      simp only [joined, parseLabels, h1, h2]
      rw [if_neg (by simpa using (h l (by simp)).1)]
      split
      · rename_i heq; simp at heq
      · rfl
  | cons k ls ih =>
    cases fuel with
    | zero => simp at hf
    | succ fuel =>
      obtain ⟨h1, h2⟩ := takeWhile_label (h l (by simp)).2
        (stop_comma (joined (k :: ls) ++ ']' :: r))
      have he : joined (l :: k :: ls) ++ ']' :: r = l ++ ',' :: (joined (k :: ls) ++ ']' :: r) := by
        simp [joined]
      rw [he]
      simp only [parseLabels, h1, h2]
      rw [if_neg (by simpa using (h l (by simp)).1),
        ih k (fun x hx => h x (List.mem_cons_of_mem _ hx)) fuel (by simpa using hf)]

/-- Text of the labels of one channel without spaces. -/
def compact : List Label → List Char
  | [] => ['[', ']']
  | [l] => l
  | l :: k :: ls => '[' :: joined (l :: k :: ls) ++ [']']

theorem joined_length (l : Label) (ls : List Label) (h : ∀ x ∈ l :: ls, GoodLabel x) :
    ls.length < (joined (l :: ls)).length := by
  induction ls generalizing l with
  | nil =>
    have := (h l (by simp)).1
    simpa [joined, List.length_pos_iff] using this
  | cons k ls ih =>
    have := ih k (fun x hx => h x (List.mem_cons_of_mem _ hx))
    simp only [joined, List.length_append, List.length_cons]
    omega

theorem parseChannel_compact (c : List Label) (h : ∀ x ∈ c, GoodLabel x) {r : List Char}
    (hr : Stop r) : parseChannel (compact c ++ r) = some (c, r) := by
  match c, h with
  | [], _ =>
    have h0 : isLabelChar '[' = false := by decide
    have h1 : isLabelChar ']' = false := by decide
    simp [compact, parseChannel, List.takeWhile, h0, parseLabels, h1]
  | [l], h =>
    obtain ⟨h1, h2⟩ := takeWhile_label (h l (by simp)).2 hr
    simp only [compact, parseChannel, h1, h2]
    rw [if_neg (by simpa using (h l (by simp)).1)]
  | l :: k :: ls, h =>
    have h0 : isLabelChar '[' = false := by decide
    have e : compact (l :: k :: ls) ++ r = '[' :: (joined (l :: k :: ls) ++ ']' :: r) := by
      simp [compact]
    rw [e]
    have hl := joined_length l (k :: ls) h
    simp only [parseChannel, List.takeWhile, h0, List.isEmpty_nil, if_true]
    rw [parseLabels_joined l (k :: ls) h r _ (by
      simp only [List.length_append, List.length_cons] at hl ⊢; omega)]
    rfl

/-- Text of the labels of all channels without spaces. -/
def compacts : List (List Label) → List Char
  | [] => []
  | [c] => compact c
  | c :: d :: cs => compact c ++ ',' :: compacts (d :: cs)

theorem compacts_length (c : List Label) (cs : List (List Label)) :
    cs.length ≤ (compacts (c :: cs)).length := by
  induction cs generalizing c with
  | nil => simp
  | cons d cs ih =>
    have := ih d
    simp only [compacts, List.length_append, List.length_cons]
    omega

theorem parseChannelList_compacts (c : List Label) (cs : List (List Label))
    (h : ∀ x ∈ c :: cs, ∀ l ∈ x, GoodLabel l) (fuel : Nat) (hf : cs.length < fuel) :
    parseChannelList fuel (compacts (c :: cs)) = some (c :: cs, []) := by
  induction cs generalizing c fuel with
  | nil =>
    cases fuel with
    | zero => simp at hf
    | succ fuel =>
      have := parseChannel_compact c (h c (by simp)) (r := []) (.inl rfl)
      rw [List.append_nil] at this
      simp only [compacts, parseChannelList, this]
  | cons d cs ih =>
    cases fuel with
    | zero => simp at hf
    | succ fuel =>
      have := parseChannel_compact c (h c (by simp)) (stop_comma (compacts (d :: cs)))
      simp only [compacts, parseChannelList, this]
      rw [ih d (fun x hx => h x (List.mem_cons_of_mem _ hx)) fuel (by simpa using hf)]

theorem space_label {l : Label} (h : ∀ c ∈ l, isLabelChar c = true) :
    l.filter (fun c => !ChannelList.isSpace c) = l := by
  rw [List.filter_eq_self]
  intro c hc
  have := h c hc
  by_contra hsp
  simp only [Bool.not_eq_true, Bool.not_eq_false'] at hsp
  simp only [ChannelList.isSpace, Bool.or_eq_true, decide_eq_true_eq] at hsp
  rcases hsp with ((((rfl | rfl) | rfl) | rfl) | rfl) | rfl <;> revert this <;> decide

theorem filter_flatten (ls : List Label) (h : ∀ x ∈ ls, GoodLabel x) :
    ((ls.map fun k => ',' :: ' ' :: k).flatten).filter (fun c => !ChannelList.isSpace c) =
      (ls.map fun k => ',' :: k).flatten := by
  induction ls with
  | nil => rfl
  | cons k ls ih =>
    have e1 : ChannelList.isSpace ',' = false := by decide
    have e2 : ChannelList.isSpace ' ' = true := by decide
    simp only [List.map_cons, List.flatten_cons, List.filter_append, List.filter_cons, e1, e2,
      Bool.not_false, Bool.not_true, if_true, Bool.false_eq_true, if_false]
    rw [space_label (h k (by simp)).2, ih (fun x hx => h x (List.mem_cons_of_mem _ hx))]

theorem joined_eq (l : Label) (ls : List Label) :
    joined (l :: ls) = l ++ (ls.map fun k => ',' :: k).flatten := by
  induction ls generalizing l with
  | nil => simp [joined]
  | cons k ls ih => simp [joined, ih]

theorem filter_labelsText (c : List Label) (h : ∀ x ∈ c, GoodLabel x) :
    (labelsText c).filter (fun c => !ChannelList.isSpace c) = compact c := by
  match c, h with
  | [], _ => decide
  | [l], h => exact space_label (h l (by simp)).2
  | l :: k :: ls, h =>
    have e1 : ChannelList.isSpace '[' = false := by decide
    have e2 : ChannelList.isSpace ' ' = true := by decide
    have e3 : ChannelList.isSpace ']' = false := by decide
    have h' := filter_flatten (k :: ls) (fun x hx => h x (List.mem_cons_of_mem _ hx))
    simp only [labelsText, List.filter_append, List.filter_cons, e1, e2, e3, List.filter_nil,
      Bool.not_false, Bool.not_true, if_true, Bool.false_eq_true, if_false, List.cons_append, h',
      space_label (h l (by simp)).2, compact, joined_eq l (k :: ls)]

theorem compacts_eq (c : List Label) (cs : List (List Label)) :
    compacts (c :: cs) = compact c ++ (cs.map fun d => ',' :: compact d).flatten := by
  induction cs generalizing c with
  | nil => simp [compacts]
  | cons d cs ih => simp [compacts, ih]

theorem filter_outputsText (c : List Label) (cs : List (List Label))
    (h : ∀ x ∈ c :: cs, ∀ l ∈ x, GoodLabel l) :
    (labelsText c ++ (cs.map fun d => ',' :: ' ' :: labelsText d).flatten).filter
      (fun c => !ChannelList.isSpace c) = compacts (c :: cs) := by
  have key : ∀ cs : List (List Label), (∀ x ∈ cs, ∀ l ∈ x, GoodLabel l) →
      ((cs.map fun d => ',' :: ' ' :: labelsText d).flatten).filter
        (fun c => !ChannelList.isSpace c) = (cs.map fun d => ',' :: compact d).flatten := by
    intro cs
    induction cs with
    | nil => intro _; rfl
    | cons d cs ih =>
      intro h
      have e1 : ChannelList.isSpace ',' = false := by decide
      have e2 : ChannelList.isSpace ' ' = true := by decide
      simp only [List.map_cons, List.flatten_cons, List.filter_append, List.filter_cons, e1, e2,
        Bool.not_false, Bool.not_true, if_true, Bool.false_eq_true, if_false,
        filter_labelsText d (h d (by simp)), ih (fun x hx => h x (List.mem_cons_of_mem _ hx))]
  rw [List.filter_append, filter_labelsText c (h c (by simp)),
    key cs (fun x hx => h x (List.mem_cons_of_mem _ hx)), compacts_eq]

theorem outputs_roundtrip (outs : List (List Label)) (hne : outs ≠ [])
    (h : ∀ c ∈ outs, ∀ l ∈ c, GoodLabel l) :
    ∃ s, outputsText outs = .ok s ∧ parseOutputs s = .ok outs := by
  cases outs with
  | nil => exact absurd rfl hne
  | cons c cs =>
    refine ⟨_, rfl, ?_⟩
    simp only [parseOutputs, filter_outputsText c cs h]
    rw [parseChannelList_compacts c cs h _ (by have := compacts_length c cs; omega)]
    rfl

/-! ### Equaliser and room -/

theorem loadSections_write (num : Num K) (eq : List (Section K))
    (h : ∀ s ∈ eq, num.small s.gain = true → s.gain = num.zero) :
    loadSections num (eq.map (writeSection num)) = .ok eq := by
  induction eq with
  | nil => rfl
  | cons s ss ih =>
    have hs : loadSection num (writeSection num s) = .ok s := by
      simp only [loadSection, writeSection, Entry.get, Outcome.ok_bind]
      by_cases hg : num.small s.gain = true
      · rw [if_pos hg]
        show Outcome.ok (⟨s.typ, s.f, s.q, num.zero⟩ : Section K) = .ok s
        rw [← h s (by simp) hg]
      · rw [if_neg hg]; rfl
    simp only [List.map_cons, loadSections, hs, Outcome.ok_bind,
      ih (fun x hx => h x (List.mem_cons_of_mem _ hx))]

theorem writeEq_spec (num : Num K) (eq : List (Section K))
    (h : ∀ s ∈ eq, num.small s.gain = true → s.gain = num.zero) :
    (eq = [] ∧ writeEq num eq = .missing) ∨ writeEq num eq = .val eq := by
  cases eq with
  | nil => left; exact ⟨rfl, rfl⟩
  | cons s ss =>
    right
    simp only [writeEq, List.isEmpty_cons, Bool.false_eq_true, if_false]
    rw [loadSections_write num _ h]; rfl

variable {E R L : Type}

theorem parsePosition_write (env : Env K E R L) (x y z : K) :
    parsePosition env (writePosition x y z) = .ok (x, y, z) := by
  simp [parsePosition, writePosition, Entry.get?]

theorem setFilters_full (flat : B) (fs : List B) (h : fs.length = 10) :
    setFilters flat fs = .ok fs := by
  simp [setFilters, numBiquads, h]

theorem parseReflections_write (env : Env K E R L) (flat : B) (rs : List (Reflection K B))
    (h : ∀ x ∈ rs, x.filters.length = 10) :
    parseReflections env flat (rs.map writeReflection) = .ok rs := by
  induction rs with
  | nil => rfl
  | cons r rs ih =>
    have hr : parseReflection env flat (writeReflection r) = .ok r := by
      simp only [parseReflection, writeReflection, parsePosition_write, Outcome.ok_bind, Entry.get,
        setFilters_full flat r.filters (h r (by simp))]
    simp only [List.map_cons, parseReflections, hr, Outcome.ok_bind,
      ih (fun x hx => h x (List.mem_cons_of_mem _ hx))]

theorem map_six (num : Num K) (l : List K) (h : ∀ x ∈ l, num.six x = x) : l.map num.six = l :=
  (List.map_congr_left h).trans (List.map_id l)

theorem parseBands_val (l : List K) (h : l.length = 9) : parseBands (.val l) = .ok l := by
  simp [parseBands, Entry.get, numSubBands, h]

theorem room_roundtrip (env : Env K E R L) (num : Num K) (flat : B) (r : Room K B)
    (h : GoodRoom num r) : parseRoom env flat (writeRoom num r) = .ok r := by
  have hr : (writeRoom num r).reflections.getD [] = r.reflections.map writeReflection := by
    simp only [writeRoom]
    by_cases he : r.reflections.isEmpty = true
    · rw [if_pos he]; rw [List.isEmpty_iff] at he; simp [he]
    · rw [if_neg he]; rfl
  simp only [parseRoom, hr, parseReflections_write env flat r.reflections h.filters, Outcome.ok_bind]
  simp only [writeRoom, Outcome.ok_bind, Entry.get, map_six num _ h.levels.2,
    map_six num _ h.attacks.2, map_six num _ h.decays.2, parseBands_val _ h.levels.1,
    parseBands_val _ h.attacks.1, parseBands_val _ h.decays.1]

/-! ### Objects -/

variable [DecidableEq K]

theorem parseBase_write (ctx : Ctx K B) (hctx : ctx.Good) (o o0 : Object K B)
    (h : Encodable ctx o) (t : Tree K B) (hc : t.channels = .val (channelText o.channels))
    (hg : t.group = .val o.group) (hl : t.level = .val o.level) (hp : t.priority = .val o.priority)
    (he : t.eq = writeEq ctx.num o.eq) :
    parseBase ctx.env t o0 = .ok { o0 with
      channels := o.channels, group := o.group, level := o.level, priority := o.priority,
      eq := o.eq } := by
  have h1 : (o.channels.map fun n : Nat => (n : Int)).map Int.toNat = o.channels := by
    rw [List.map_map]
    exact (List.map_congr_left (fun _ _ => rfl)).trans (List.map_id _)
  have h2 : parseChannels t o0 = .ok { o0 with channels := o.channels } := by
    simp only [parseChannels, hc, Entry.get, Outcome.ok_bind, parse_channelText _ h.channels, h1]
  simp only [parseBase, h2, hg, hl, hp, he, Entry.get, Outcome.ok_bind]
  rcases writeEq_spec ctx.num o.eq h.eq with ⟨e1, e2⟩ | e2
  · rw [e2]; simp only [Entry.present, hctx.eq0, e1, Bool.false_eq_true, if_false, Outcome.ok_bind]
  · simp [e2, Entry.present, Entry.get]

theorem getD_if (x d : K) : (if x ≠ d then Entry.val x else Entry.missing).getD d = x := by
  by_cases h : x = d
  · simp [h, Entry.getD]
  · simp [h, Entry.getD]

theorem parsePoint_write (ctx : Ctx K B) (hctx : ctx.Good) (o o0 : Object K B)
    (h : Encodable ctx o) (t : Tree K B) (hc : t.channels = .val (channelText o.channels))
    (hg : t.group = .val o.group) (hl : t.level = .val o.level) (hp : t.priority = .val o.priority)
    (he : t.eq = writeEq ctx.num o.eq) (hpos : t.position = some (writePosition o.x o.y o.z))
    (hlock : t.lock = if o.lock ≠ ctx.num.zero then .val o.lock else .missing) :
    parsePoint ctx.env t o0 = .ok { o0 with
      channels := o.channels, group := o.group, level := o.level, priority := o.priority,
      eq := o.eq, x := o.x, y := o.y, z := o.z, lock := o.lock } := by
  simp only [parsePoint, parseBase_write ctx hctx o o0 h t hc hg hl hp he, Outcome.ok_bind, hpos,
    parsePosition_write, hlock, hctx.zero, getD_if, asInvalid]

/-- The node written for an object gives back the object, whatever object of the same
type and id it is applied to. -/
theorem parse_write (ctx : Ctx K B) (hctx : ctx.Good) (o o0 : Object K B)
    (h : Encodable ctx o) (h0 : Plain ctx.env o0) (hid : o0.id = o.id) (hty : o0.typ = o.typ) :
    ∃ t parser, writeObject ctx o = .ok t ∧ t.typ = .val (some o.typ) ∧ t.id = .val o.id ∧
      parserFor o.typ = .ok parser ∧ parser ctx.env t o0 = .ok o := by
  obtain ⟨id, typ, channels, group, level, priority, eq, x, y, z, lock, diffuseness, width, height,
    depth, az, el, refdist, order, outputs, reverb⟩ := o
  obtain ⟨id0, typ0, channels0, group0, level0, priority0, eq0, x0, y0, z0, lock0, diffuseness0,
    width0, height0, depth0, az0, el0, refdist0, order0, outputs0, reverb0⟩ := o0
  simp only at hid hty
  subst hid hty
  have hp := h.plain
  have p1 := hp.position; have p2 := hp.diffuseness; have p3 := hp.extent; have p4 := hp.plane
  have p5 := hp.hoa; have p6 := hp.channel; have p7 := hp.reverb
  have q1 := h0.position; have q2 := h0.diffuseness; have q3 := h0.extent; have q4 := h0.plane
  have q5 := h0.hoa; have q6 := h0.channel; have q7 := h0.reverb
  have g1 := h.hoa; have g2 := h.channel; have g3 := h.reverb
  have g4 := h.typ
  cases typ0 with
  | point =>
    refine ⟨_, _, rfl, rfl, rfl, rfl, ?_⟩
    rw [parsePoint_write ctx hctx _ _ h _ rfl rfl rfl rfl rfl rfl rfl]
    simp_all
  | pointExtent => exact absurd rfl g4.2
  | plane =>
    refine ⟨_, _, rfl, rfl, rfl, rfl, ?_⟩
    simp only [parsePlane]
    rw [parseBase_write ctx hctx _ _ h _ rfl rfl rfl rfl rfl]
    simp only [writePlane, Entry.get, Outcome.ok_bind, asInvalid]
    simp_all
  | diffuse =>
    refine ⟨_, _, rfl, rfl, rfl, rfl, ?_⟩
    simp only [parseDiffuse]
    rw [parseBase_write ctx hctx _ _ h _ rfl rfl rfl rfl rfl]
    simp only [asInvalid]
    simp_all
  | pointDiffuse =>
    refine ⟨_, _, rfl, rfl, rfl, rfl, ?_⟩
    simp only [parsePointDiffuse]
    rw [parsePoint_write ctx hctx _ _ h _ rfl rfl rfl rfl rfl rfl rfl]
    simp only [writePointDiffuse, Entry.get, Outcome.ok_bind, asInvalid]
    simp_all
  | extended => exact absurd rfl g4.1
  | hoa =>
    refine ⟨_, _, rfl, rfl, rfl, rfl, ?_⟩
    simp only [parseHoa]
    rw [parseBase_write ctx hctx _ _ h _ rfl rfl rfl rfl rfl]
    have := g1 rfl
    simp only at this
    simp only [writeHoa, Entry.get, Outcome.ok_bind]
    rw [if_neg (by simp only [this, ne_eq, not_true_eq_false, not_false_eq_true])]
    simp only [asInvalid]
    simp_all
  | channel =>
    obtain ⟨a1, a2, a3⟩ := g2 rfl
    simp only at a1 a2 a3
    obtain ⟨s, hs1, hs2⟩ := outputs_roundtrip outputs a2 a3
    have hw : writeObject ctx (⟨id0, .channel, channels, group, level, priority, eq, x, y, z, lock,
        diffuseness, width, height, depth, az, el, refdist, order, outputs, reverb⟩ : Object K B) =
        .ok { writeBase ctx (⟨id0, .channel, channels, group, level, priority, eq, x, y, z, lock,
        diffuseness, width, height, depth, az, el, refdist, order, outputs, reverb⟩ : Object K B) with
          diffuseness := if diffuseness ≠ ctx.num.zero then .val diffuseness else .missing
          outputs := .val outputs } := by
      simp only [writeObject, writeChannelObject, a1, ne_eq, not_true_eq_false, if_false, hs1,
        Outcome.ok_bind, hs2, entryOf]
    refine ⟨_, _, hw, rfl, rfl, rfl, ?_⟩
    simp only [parseChannelObject]
    rw [parseBase_write ctx hctx _ _ h _ rfl rfl rfl rfl rfl]
    simp only [Entry.get, Outcome.ok_bind]
    rw [if_neg (by simp only [a1, ne_eq, not_true_eq_false, not_false_eq_true])]
    have := getD_if diffuseness ctx.num.zero
    simp only [asInvalid, hctx.zero, this]
    simp_all
  | pointReverb =>
    have hr := room_roundtrip ctx.env ctx.num ctx.flat reverb (g3 rfl)
    refine ⟨_, _, rfl, rfl, rfl, rfl, ?_⟩
    simp only [parseReverb]
    rw [parsePoint_write ctx hctx _ _ h _ rfl rfl rfl rfl rfl rfl rfl]
    simp only [writeReverb, hr, entryOf, Entry.get, Outcome.ok_bind, asInvalid]
    simp_all

end Visr.Encode
