import Verif.ArrayConfig.Accept
import Mathlib.Algebra.Field.Rat

/-!
# C73: loading a loudspeaker array configuration

`Spec.lean` says which configurations are well-formed and what an array must contain
to be the one described by a configuration.
-/

namespace Visr.ArrayConfig
open Visr

variable {K : Type}

/-! ### Concrete configurations -/

namespace Demo

/-- Stand-ins for the conversions, to see where they are applied. -/
def cv : Conv ℚ := ⟨fun az el r => (az + r, el, r), fun d => d + 1⟩

def noAdjust : Adjust ℚ := ⟨.missing, .missing, .missing⟩

def origin : Coord ℚ := ⟨[⟨.val 1, .val 0, .val 0⟩], []⟩

def left : Lsp ℚ :=
  ⟨some ['L'], .val 3, ⟨[⟨.val 1, .val 2, .val 0⟩], []⟩, ⟨.val 2, .missing, .val 5⟩, some ['e']⟩

def right : Lsp ℚ :=
  ⟨some ['R'], .val 1, ⟨[], [⟨.val 30, .val 1, .val 2⟩]⟩, ⟨.missing, .val 6, .missing⟩, none⟩

def virt : Virt ℚ :=
  ⟨some [' ', 'V'], ⟨[⟨.val 0, .val 0, .val (-1)⟩], []⟩, [⟨some ['R'], .val 3⟩]⟩

def sub : Sub ℚ :=
  ⟨.val 2, some ['L', ' ', ',', ',', 'R'], .val [1, 7], noAdjust, some ['e']⟩

def eqs : EqConfig ℚ :=
  ⟨.val 2, [⟨some ['e'], [⟨.val 2, .val 4, .val 6, .val 8, .val 10, .val 12⟩]⟩]⟩

/-- Two loudspeakers, a virtual loudspeaker, a triplet, a subwoofer and an equaliser. -/
def cfg : Config ℚ :=
  ⟨some ['3'], .val true, [left, right], [virt], [⟨some ['L'], some ['R'], some ['V']⟩], [sub],
    [eqs]⟩

/-- The array loaded from `cfg`. -/
def arr : Arr ℚ where
  is2D := false
  isInfinite := true
  position := [⟨32, 1, 2, true⟩, ⟨1, 2, 0, true⟩, ⟨0, 0, -1, true⟩]
  channel := [1, 3]
  ids := [(['L'], 1), (['R'], 0), (['V'], 2)]
  gainAdj := [7, 2, 1]
  delayAdj := [0, 5, 0]
  reRouting := [[4, 0]]
  triplets := [(1, 0, some 2)]
  subChannels := [2]
  subGains := [[7, 1]]
  eqs := some [[⟨1, 0, 0, 0, 0⟩, ⟨1, 0, 0, 0, 0⟩], [⟨4, 5, 6, 2, 3⟩, ⟨1, 0, 0, 0, 0⟩],
    [⟨4, 5, 6, 2, 3⟩, ⟨1, 0, 0, 0, 0⟩]]

/-- A loudspeaker with the given id and channel. -/
def plain (id : Id) (c : Nat) : Lsp ℚ := ⟨some id, .val c, origin, noAdjust, none⟩

/-- A configuration with only loudspeakers. -/
def only (ls : List (Lsp ℚ)) : Config ℚ := ⟨none, .missing, ls, [], [], [], []⟩

end Demo

theorem demo_loads : load Demo.cv Arr.empty Demo.cfg = .ok Demo.arr := by decide +kernel

theorem demo_unpadded : Unpadded Demo.cfg := by
  intro l hl s hs
  rw [stripped_iff]
  simp only [Demo.cfg, List.mem_cons, List.not_mem_nil, or_false] at hl
  rcases hl with rfl | rfl <;> (cases hs; decide)

/-! ### The property -/

/-- If the ids of the regular loudspeakers are written without blanks around them, an
array object that knows no ids yet and that loads a configuration successfully is the
array described by the configuration.  Missing: ids with blanks and repeated loading
(`padded_id_is_misplaced` and `stale_id_after_second_load` below). -/
theorem loaded_array_is_described_partial [Field K] (cv : Conv K) (a r : Arr K) (cfg : Config K)
    (ha : a.ids = []) (hu : Unpadded cfg) (h : load cv a cfg = .ok r) : Describes cv cfg r := by
  obtain ⟨d, t, ys, vs, tr, ss, hr, rfl⟩ := (load_iff ha).1 h
  exact reads_describes hr (reads_unpadded hr.lsps hu) a

example : Describes Demo.cv Demo.cfg Demo.arr :=
  loaded_array_is_described_partial _ _ _ _ rfl demo_unpadded demo_loads

/-- Under the same conditions, a configuration is accepted if and only if it is
well-formed. -/
theorem accepted_iff_wellFormed_partial [Field K] (cv : Conv K) (a : Arr K) (cfg : Config K)
    (ha : a.ids = []) (hu : Unpadded cfg) :
    (∃ r, load cv a cfg = .ok r) ↔ WellFormed cv cfg := by
  constructor
  · rintro ⟨r, h⟩
    obtain ⟨d, t, ys, vs, tr, ss, hr, rfl⟩ := (load_iff ha).1 h
    exact reads_wellFormed hr (reads_unpadded hr.lsps hu)
  · intro hw
    obtain ⟨d, t, ys, vs, tr, ss, hr⟩ := wellFormed_reads hw hu
    exact ⟨_, (load_iff ha).2 ⟨d, t, ys, vs, tr, ss, hr, rfl⟩⟩

example : WellFormed Demo.cv Demo.cfg :=
  (accepted_iff_wellFormed_partial Demo.cv Arr.empty Demo.cfg rfl demo_unpadded).1 ⟨_, demo_loads⟩

/-- A configuration that is not well-formed is rejected with an exception, provided that
no route and no subwoofer refers to a virtual loudspeaker.  Missing: such references
(`route_to_virtual_is_undefined` and `subwoofer_of_virtual_is_undefined` below). -/
theorem malformed_is_rejected_partial [Field K] (cv : Conv K) (a : Arr K) (cfg : Config K)
    (ha : a.ids = []) (hu : Unpadded cfg) (href : RegularReferences cfg)
    (hw : ¬ WellFormed cv cfg) : ∃ e, load cv a cfg = .throw e := by
  cases h : load cv a cfg with
  | ok r => exact absurd ((accepted_iff_wellFormed_partial cv a cfg ha hu).1 ⟨r, h⟩) hw
  | throw e => exact ⟨e, rfl⟩
  | ub => exact absurd h (load_no_ub ha href)

/-- Two loudspeakers with the same channel meet the hypotheses. -/
example : Unpadded (Demo.only [Demo.plain ['A'] 1, Demo.plain ['B'] 1]) ∧
    RegularReferences (Demo.only [Demo.plain ['A'] 1, Demo.plain ['B'] 1]) ∧
    ¬ WellFormed Demo.cv (Demo.only [Demo.plain ['A'] 1, Demo.plain ['B'] 1]) := by
  have hu : Unpadded (Demo.only [Demo.plain ['A'] 1, Demo.plain ['B'] 1]) := by
    intro l hl s hs
    rw [stripped_iff]
    simp only [Demo.only, List.mem_cons, List.not_mem_nil, or_false] at hl
    rcases hl with rfl | rfl <;> (cases hs; decide)
  refine ⟨hu, ⟨by simp [Demo.only], by simp [Demo.only]⟩, ?_⟩
  rw [← accepted_iff_wellFormed_partial Demo.cv Arr.empty _ rfl hu]
  rintro ⟨r, h⟩
  have : load Demo.cv Arr.empty (Demo.only [Demo.plain ['A'] 1, Demo.plain ['B'] 1]) =
    .throw .invalidArgument := by decide +kernel
  rw [this] at h
  cases h

/-! ### Where the property fails -/

/-- An id with a blank in front of it is accepted, but the name then denotes the first
loudspeaker: the blank is removed when the id is registered, not when it gets its index. -/
theorem padded_id_is_misplaced :
    ∃ (cfg : Config ℚ) (r : Arr ℚ), load Demo.cv Arr.empty cfg = .ok r ∧
      Regular cfg ['B'] ∧ cfg.loudspeakers[1]? = some (Demo.plain [' ', 'B'] 2) ∧
      r.channelOfId ['B'] = .ok 1 ∧ ¬ Describes Demo.cv cfg r := by
  refine ⟨Demo.only [Demo.plain ['A'] 1, Demo.plain [' ', 'B'] 2],
    { is2D := false, isInfinite := false, position := [⟨1, 0, 0, false⟩, ⟨1, 0, 0, false⟩],
      channel := [1, 2], ids := [(['A'], 0), (['B'], 0), ([' ', 'B'], 1)], gainAdj := [1, 1],
      delayAdj := [0, 0], reRouting := [], triplets := [], subChannels := [], subGains := [],
      eqs := none }, by decide +kernel, ?_, rfl, rfl, ?_⟩
  · exact ⟨Demo.plain [' ', 'B'] 2, by simp [Demo.only], hasName_iff.2 ⟨_, rfl, rfl⟩⟩
  · intro h
    obtain ⟨i, hi⟩ := h.regular (Demo.plain [' ', 'B'] 2) (by simp [Demo.only]) ['B'] 2
      (hasName_iff.2 ⟨_, rfl, rfl⟩) rfl
    have h1 := hi.index
    have h2 := hi.channel
    have : i = 0 := by
      have h3 : (Outcome.ok 0 : Outcome Nat) = .ok i := h1
      cases h3; rfl
    subst this
    have h4 : (Outcome.ok 1 : Outcome Nat) = .ok 2 := h2
    cases h4

/-- A route from a virtual loudspeaker to a virtual loudspeaker writes outside the
re-routing matrix instead of being rejected. -/
theorem route_to_virtual_is_undefined :
    ∃ cfg : Config ℚ, Unpadded cfg ∧ load Demo.cv Arr.empty cfg = .ub := by
  refine ⟨{ Demo.only [Demo.plain ['A'] 1] with
    virtuals := [⟨some ['V'], Demo.origin, [⟨some ['V'], .val 0⟩]⟩] }, ?_, by decide +kernel⟩
  intro l hl s hs
  rw [stripped_iff]
  simp only [Demo.only, List.mem_cons, List.not_mem_nil, or_false] at hl
  subst hl
  cases hs; decide

/-- A subwoofer fed from a virtual loudspeaker writes outside the matrix of the subwoofer
gains instead of being rejected. -/
theorem subwoofer_of_virtual_is_undefined :
    ∃ cfg : Config ℚ, Unpadded cfg ∧ load Demo.cv Arr.empty cfg = .ub := by
  refine ⟨{ Demo.only [Demo.plain ['A'] 1] with
    virtuals := [⟨some ['V'], Demo.origin, []⟩]
    subwoofers := [⟨.val 2, some ['V'], .missing, Demo.noAdjust, none⟩] }, ?_, by decide +kernel⟩
  intro l hl s hs
  rw [stripped_iff]
  simp only [Demo.only, List.mem_cons, List.not_mem_nil, or_false] at hl
  subst hl
  cases hs; decide

theorem find_insertAll_none {ps ids : List (Id × Nat)} {k : Id}
    (h : find (insertAll ids ps) k = none) : find ids k = none := by
  induction ps generalizing ids with
  | nil => exact h
  | cons p ps ih =>
    have := ih (ids := insert ids p.1 p.2) h
    rw [find_insert] at this
    split_ifs at this with e
    exact this

/-- An array object never accepts the configuration it has been loaded with a second
time. -/
theorem reload_is_rejected [Field K] (cv : Conv K) (a r : Arr K) (cfg : Config K)
    (ha : a.ids = []) (hne : cfg.loudspeakers ≠ []) (h : load cv a cfg = .ok r) :
    load cv r cfg = .throw .invalidArgument := by
  obtain ⟨d, t, ys, vs, tr, ss, hr, rfl⟩ := (load_iff ha).1 h
  have hids : (final a cfg d t ys vs tr ss).ids = idsAll ys vs := (final_fields a).2.2.2.2.1
  cases hl : cfg.loudspeakers with
  | nil => exact absurd hl hne
  | cons l ls =>
    obtain ⟨y, hy, hy'⟩ := forall₂_left hr.lsps (x := l) (by simp [hl])
    have hf : (find (idsAll ys vs) (trim y.text)).isSome = true := by
      rw [Option.isSome_iff_ne_none]
      intro hn
      have h1 := find_insertAll_none (find_insertAll_none hn)
      rw [find_insertAll _ _ _ 0 (by rw [List.map_map]; exact hr.lspNames)
        (List.mem_map.2 ⟨y, hy, rfl⟩)] at h1
      simp at h1
    change load cv (final a cfg d t ys vs tr ss) cfg = _
    simp only [load, hr.dim, hr.eq, Outcome.ok_bind, hl, List.foldlM_cons, register, hy'.text,
      getText, checkId, hids, hf, Bool.or_true, if_true, Outcome.throw_bind]

example : load Demo.cv Demo.arr Demo.cfg = .throw .invalidArgument :=
  reload_is_rejected _ _ _ _ rfl (by simp [Demo.cfg]) demo_loads

/-- After a second, different configuration has been loaded, the ids of the first one are
still resolved. -/
theorem stale_id_after_second_load :
    ∃ (c1 c2 : Config ℚ) (r1 r2 : Arr ℚ), load Demo.cv Arr.empty c1 = .ok r1 ∧
      load Demo.cv r1 c2 = .ok r2 ∧ ¬ Regular c2 ['A'] ∧ ¬ Virtual c2 ['A'] ∧
      r2.indexOfId ['A'] = .ok 1 ∧ r2.channelOfId ['A'] = .ub := by
  refine ⟨Demo.only [Demo.plain ['B'] 1, Demo.plain ['A'] 2], Demo.only [Demo.plain ['C'] 1],
    { is2D := false, isInfinite := false, position := [⟨1, 0, 0, false⟩, ⟨1, 0, 0, false⟩],
      channel := [1, 2], ids := [(['B'], 0), (['A'], 1)], gainAdj := [1, 1],
      delayAdj := [0, 0], reRouting := [], triplets := [], subChannels := [], subGains := [],
      eqs := none },
    { is2D := false, isInfinite := false, position := [⟨1, 0, 0, false⟩],
      channel := [1], ids := [(['B'], 0), (['A'], 1), (['C'], 0)], gainAdj := [1],
      delayAdj := [0], reRouting := [], triplets := [], subChannels := [], subGains := [],
      eqs := none }, by decide +kernel, by decide +kernel, ?_, ?_, rfl, rfl⟩
  · rintro ⟨l, hl, hn⟩
    simp only [Demo.only, List.mem_cons, List.not_mem_nil, or_false] at hl
    subst hl
    obtain ⟨s, h1, h2⟩ := hasName_iff.1 hn
    cases h1
    revert h2; decide
  · rintro ⟨l, hl, _⟩
    simp [Demo.only] at hl

/-- The output channel of a virtual loudspeaker, asked for by its id, is read outside the
vector of channels; the documentation promises `std::out_of_range`. -/
theorem channel_of_virtual_is_undefined [Field K] (cv : Conv K) (a r : Arr K) (cfg : Config K)
    (ha : a.ids = []) (hu : Unpadded cfg) (h : load cv a cfg = .ok r) (name : Id)
    (hv : Virtual cfg name) : r.channelOfId name = .ub := by
  have hd := loaded_array_is_described_partial cv a r cfg ha hu h
  obtain ⟨v, hv, hn⟩ := hv
  obtain ⟨k, hk⟩ := List.mem_iff_getElem?.1 hv
  have h1 := (hd.virtuals k v name hk hn).1
  have h2 : r.channel[cfg.loudspeakers.length + k]? = none := by
    rw [List.getElem?_eq_none]; rw [hd.sizes.1]; omega
  simp [Arr.channelOfId, h1, element, h2]

example : Virtual Demo.cfg ['V'] ∧ Demo.arr.channelOfId ['V'] = .ub :=
  ⟨⟨Demo.virt, by simp [Demo.cfg], hasName_iff.2 ⟨_, rfl, rfl⟩⟩, rfl⟩

/-- A subwoofer may have channel 0, although channels are counted from one. -/
theorem subwoofer_channel_zero_is_accepted :
    ∃ (cfg : Config ℚ) (r : Arr ℚ), load Demo.cv Arr.empty cfg = .ok r ∧ r.subChannels = [0] := by
  refine ⟨{ Demo.only [Demo.plain ['A'] 1] with
    subwoofers := [⟨.val 0, some ['A'], .missing, Demo.noAdjust, none⟩] },
    { is2D := false, isInfinite := false, position := [⟨1, 0, 0, false⟩],
      channel := [1], ids := [(['A'], 0)], gainAdj := [1, 1],
      delayAdj := [0, 0], reRouting := [], triplets := [], subChannels := [0], subGains := [[1]],
      eqs := none }, by decide +kernel, rfl⟩

end Visr.ArrayConfig
