import Verif.ChannelObject.Model
import Verif.RoutingParameter.Props
import Verif.SignalRouting.Props
import Mathlib.Tactic.Common
import Mathlib.Tactic.IntervalCases

/-!
# C41: channel objects are routed to the loudspeaker with the requested id
-/

namespace Visr.ChannelObject
open Visr
open Visr.RoutingParameter (Entry addRouting Graph Routing graph_step)

/-! ## Specification -/

/-- A well-formed array: the ids are keys of a map, every index has at most one id, and every regular loudspeaker has
one. -/
structure Array.Valid (a : Array) : Prop where
  keys : (a.ids.map (·.1)).Nodup
  indices : (a.ids.map (·.2)).Nodup
  regular : ∀ i, i < a.numRegular → ∃ id, (id, i) ∈ a.ids

/-- The loudspeaker with a given id is the regular loudspeaker number `l`. -/
def Array.Names (a : Array) (id : String) (l : Nat) : Prop := (id, l) ∈ a.ids ∧ l < a.numRegular

/-- The class invariant of channel objects. -/
def Obj.Valid (o : Obj) : Prop := o.isChannel = true → o.outputs.length = o.channels.length

instance (o : Obj) : Decidable o.Valid := inferInstanceAs (Decidable (_ → _))

/-- Channel `k` of the object asks for its signal `ch` to be played on the loudspeaker with one given id. -/
def Obj.Asks (o : Obj) (k ch : Nat) (id : String) : Prop :=
  o.isChannel = true ∧ o.channels[k]? = some ch ∧ o.outputs[k]? = some [id]

/-- The requests of an object for which the calculator creates a routing, in order: pairs of signal and loudspeaker. -/
def Obj.requests (o : Obj) (target : String → Option Nat) (limit : Nat) : List (Nat × Nat) :=
  if o.isChannel then
    (o.channels.zip o.outputs).filterMap fun p =>
      if p.1 ≤ limit then
        match p.2 with
        | [id] => (target id).map fun l => (p.1, l)
        | _ => none
      else none
  else []

/-! ## Helpers -/

theorem find_mem {l : Lookup} (hk : (l.map (·.1)).Nodup) (id : String) (i : Nat) :
    l.find id = some i ↔ (id, i) ∈ l := by
  unfold Lookup.find
  induction l with
  | nil => simp
  | cons e l ih =>
    rw [List.map_cons, List.nodup_cons] at hk
    rw [List.find?_cons]
    by_cases he : e.1 = id
    · have : (e.1 == id) = true := by simpa using he
      rw [this]
      simp only [Option.map_some, Option.some.injEq, List.mem_cons]
      constructor
      · rintro rfl; left; rw [← he]
      · rintro (h | h)
        · rw [← h]
        · exfalso; apply hk.1; rw [he]; exact List.mem_map.mpr ⟨_, h, rfl⟩
    · have : (e.1 == id) = false := by simpa using he
      rw [this]
      simp only [ih hk.2, List.mem_cons]
      constructor
      · exact fun h => Or.inr h
      · rintro (h | h)
        · exact absurd (congrArg Prod.fst h).symm he
        · exact h

theorem loudspeakerId_of_mem {a : Array} (h : a.Valid) {id : String} {i : Nat} (hm : (id, i) ∈ a.ids) :
    a.loudspeakerId i = .ok id := by
  unfold Array.loudspeakerId
  cases hf : a.ids.find? (fun e => e.2 == i) with
  | none =>
    rw [List.find?_eq_none] at hf
    exact absurd (by simp) (hf _ hm)
  | some e =>
    have h1 := List.mem_of_find?_eq_some hf
    have h2 : e.2 = i := by simpa using List.find?_some hf
    have := List.inj_on_of_nodup_map h.indices h1 hm h2
    rw [this]

theorem buildLookup_spec {a : Array} (h : a.Valid) : ∀ n, n ≤ a.numRegular → ∃ l, buildLookup a n = .ok l ∧
    (l.map (·.1)).Nodup ∧ ∀ id i, (id, i) ∈ l ↔ (id, i) ∈ a.ids ∧ i < n := by
  intro n
  induction n with
  | zero => intro _; exact ⟨[], rfl, by simp, by simp⟩
  | succ n ih =>
    intro hn
    obtain ⟨l, h1, h2, h3⟩ := ih (by omega)
    obtain ⟨id, hid⟩ := h.regular n (by omega)
    have hfresh : id ∉ l.map (·.1) := by
      intro hc
      obtain ⟨e, he, hee⟩ := List.mem_map.mp hc
      have := (h3 e.1 e.2).mp he
      have he2 : (e.1, e.2) = (id, n) := List.inj_on_of_nodup_map h.keys this.1 hid hee
      have : e.2 = n := congrArg Prod.snd he2
      omega
    refine ⟨l ++ [(id, n)], ?_, ?_, ?_⟩
    · rw [buildLookup, h1]
      simp only [loudspeakerId_of_mem h hid]
      rw [if_neg]
      intro hc
      obtain ⟨i, hi⟩ := Option.isSome_iff_exists.mp hc
      apply hfresh
      have := (find_mem h2 id i).mp hi
      exact List.mem_map.mpr ⟨_, this, rfl⟩
    · rw [List.map_append, List.nodup_append]
      refine ⟨h2, by simp, ?_⟩
      intro x hx y hy
      simp only [List.map_cons, List.map_nil, List.mem_singleton] at hy
      rintro rfl
      rw [hy] at hx; exact hfresh hx
    · intro id' i
      rw [List.mem_append, h3, List.mem_singleton, Prod.mk.injEq]
      constructor
      · rintro (⟨h4, h5⟩ | ⟨rfl, rfl⟩)
        · exact ⟨h4, by omega⟩
        · exact ⟨hid, by omega⟩
      · rintro ⟨h4, h5⟩
        by_cases hi : i < n
        · exact Or.inl ⟨h4, hi⟩
        · have : i = n := by omega
          subst this
          right
          have := List.inj_on_of_nodup_map h.indices h4 hid rfl
          exact ⟨congrArg Prod.fst this, rfl⟩

/-- Add a list of routings, later ones replacing earlier ones. -/
def addAll (f : Routing) (rs : List (Nat × Nat)) : Routing :=
  rs.foldl (fun f r => fun o => if o = r.2 then some r.1 else f o) f

theorem addAll_append (f : Routing) (r s : List (Nat × Nat)) : addAll f (r ++ s) = addAll (addAll f r) s := by
  unfold addAll; rw [List.foldl_append]

theorem addAll_last (rs : List (Nat × Nat)) : ∀ (f : Routing) (o : Nat),
    addAll f rs o = match (rs.filter (fun r => r.2 == o)).getLast? with
      | some r => some r.1
      | none => f o := by
  induction rs with
  | nil => intro f o; rfl
  | cons r rs ih =>
    intro f o
    show addAll _ rs o = _
    rw [ih]
    by_cases hr : r.2 = o
    · have : (r.2 == o) = true := by simpa using hr
      rw [List.filter_cons, this, if_pos rfl, List.getLast?_cons]
      cases (rs.filter (fun r => r.2 == o)).getLast? with
      | none => simp [hr]
      | some x => simp
    · have : (r.2 == o) = false := by simpa using hr
      rw [List.filter_cons, this, if_neg (by simp)]
      cases (rs.filter (fun r => r.2 == o)).getLast? with
      | none => simp; intro h; exact absurd h.symm hr
      | some x => rfl

theorem graph_add {s : List Entry} {f : Routing} (h : Graph s f) (i o : Nat) :
    Graph (addRouting s ⟨i, o⟩) (fun x => if x = o then some i else f x) :=
  (graph_step h (.add i o)).1

theorem routeChannels_graph (c : Calc) (o : Obj) (ho : o.isChannel = true) (hv : o.outputs.length = o.channels.length) :
    ∀ (n k : Nat) (s : List Entry) (f : Routing), k + n = o.channels.length → Graph s f →
      let reqs := ((o.channels.drop k).zip (o.outputs.drop k)).filterMap fun p =>
        if p.1 ≤ c.numChannels then
          match p.2 with
          | [id] => (c.lookup.find id).map fun l => (p.1, l)
          | _ => none
        else none
      (forEach (routeChannel c o) (List.range' k n) s).2 = .ok () ∧
      Graph (forEach (routeChannel c o) (List.range' k n) s).1 (addAll f reqs) := by
  intro n
  induction n with
  | zero =>
    intro k s f hk hg
    have : o.channels.drop k = [] := by apply List.drop_eq_nil_of_le; omega
    simp only [List.range'_zero, forEach, this, List.zip_nil_left, List.filterMap_nil]
    exact ⟨by trivial, hg⟩
  | succ n ih =>
    intro k s f hk hg
    have h1 : k < o.channels.length := by omega
    have h2 : k < o.outputs.length := by omega
    have ih' := ih (k + 1)
    rw [List.range'_succ]
    rw [List.drop_eq_getElem_cons h1, List.drop_eq_getElem_cons h2, List.zip_cons_cons, List.filterMap_cons]
    simp only [forEach, routeChannel, List.getElem?_eq_getElem h1, List.getElem?_eq_getElem h2]
    by_cases hle : o.channels[k] ≤ c.numChannels
    · rw [if_neg (by omega)]
      simp only [if_pos hle]
      cases hout : o.outputs[k] with
      | nil => exact ih' s f (by omega) hg
      | cons id rest =>
        cases rest with
        | nil =>
          simp only
          cases hf : c.lookup.find id with
          | none => exact ih' s f (by omega) hg
          | some l =>
            simp only [Option.map_some]
            exact ih' _ _ (by omega) (graph_add hg _ l)
        | cons id2 rest => exact ih' s f (by omega) hg
    · rw [if_pos (by omega)]
      simp only [if_neg hle]
      exact ih' s f (by omega) hg

theorem routeObject_graph (c : Calc) (o : Obj) (hv : o.Valid) (s : List Entry) (f : Routing) (hg : Graph s f) :
    (routeObject c s o).2 = .ok () ∧ Graph (routeObject c s o).1 (addAll f (o.requests c.lookup.find c.numChannels)) := by
  unfold routeObject Obj.requests
  by_cases ho : o.isChannel = true
  · rw [if_neg (by simp [ho]), if_pos ho, List.range_eq_range']
    have := routeChannels_graph c o ho (hv ho) o.channels.length 0 s f (by omega) hg
    simpa using this
  · rw [if_pos (by simpa using ho), if_neg ho]
    exact ⟨rfl, hg⟩

theorem routeObjects_graph (c : Calc) : ∀ (objects : List Obj), (∀ o ∈ objects, o.Valid) →
    ∀ (s : List Entry) (f : Routing), Graph s f →
    (forEach (routeObject c) objects s).2 = .ok () ∧ Graph (forEach (routeObject c) objects s).1
      (addAll f (objects.flatMap fun o => o.requests c.lookup.find c.numChannels)) := by
  intro objects
  induction objects with
  | nil => intro _ s f hg; exact ⟨rfl, hg⟩
  | cons o objects ih =>
    intro hv s f hg
    obtain ⟨h1, h2⟩ := routeObject_graph c o (hv o (by simp)) s f hg
    have ih' := ih (fun x hx => hv x (by simp [hx])) _ _ h2
    rw [List.flatMap_cons, addAll_append]
    simp only [forEach]
    cases hr : routeObject c s o with
    | mk s' r =>
      rw [hr] at h1 h2 ih'
      simp only at h1 ih'
      subst h1
      exact ih'

theorem requests_mem (o : Obj) (target : String → Option Nat) (limit ch l : Nat) :
    (ch, l) ∈ o.requests target limit ↔ ∃ k id, o.Asks k ch id ∧ ch ≤ limit ∧ target id = some l := by
  unfold Obj.requests Obj.Asks
  by_cases ho : o.isChannel = true
  · rw [if_pos ho]
    simp only [List.mem_filterMap, ho, true_and]
    constructor
    · rintro ⟨p, hp, h⟩
      obtain ⟨k, hk, hkp⟩ := List.mem_iff_getElem.mp hp
      rw [List.getElem_zip] at hkp
      rw [List.length_zip] at hk
      split_ifs at h with hle
      cases hout : p.2 with
      | nil => rw [hout] at h; cases h
      | cons id rest =>
        cases rest with
        | cons a b => rw [hout] at h; cases h
        | nil =>
          rw [hout] at h
          simp only at h
          cases ht : target id with
          | none => rw [ht] at h; cases h
          | some l' =>
            rw [ht] at h
            simp only [Option.map_some, Option.some.injEq, Prod.mk.injEq] at h
            obtain ⟨rfl, rfl⟩ := h
            refine ⟨k, id, ⟨?_, ?_⟩, hle, ht⟩
            · rw [List.getElem?_eq_getElem (by omega), ← hkp]
            · rw [List.getElem?_eq_getElem (by omega), ← hout, ← hkp]
    · rintro ⟨k, id, ⟨h1, h2⟩, hle, ht⟩
      refine ⟨(ch, [id]), ?_, ?_⟩
      · obtain ⟨a1, a2⟩ := List.getElem?_eq_some_iff.mp h1
        obtain ⟨b1, b2⟩ := List.getElem?_eq_some_iff.mp h2
        rw [List.mem_iff_getElem]
        refine ⟨k, by rw [List.length_zip]; omega, ?_⟩
        rw [List.getElem_zip, a2, b2]
      · simp [hle, ht]
  · rw [if_neg ho]
    simp [ho]

/-! ## Theorems -/

/-- Construction succeeds for every valid array. -/
theorem construct_ok (a : Array) (h : a.Valid) (n : Nat) : ∃ c, construct n a = .ok c ∧ c.numChannels = n := by
  obtain ⟨l, h1, _⟩ := buildLookup_spec h a.numRegular le_rfl
  exact ⟨⟨n, l, [], [], false⟩, by unfold construct; rw [h1], rfl⟩

theorem construct_lookup {a : Array} (h : a.Valid) {n : Nat} {c : Calc} (hc : construct n a = .ok c) :
    c.numChannels = n ∧ ∀ id l, c.lookup.find id = some l ↔ a.Names id l := by
  obtain ⟨l, h1, h2, h3⟩ := buildLookup_spec h a.numRegular le_rfl
  unfold construct at hc
  rw [h1] at hc
  injection hc with hc
  subst hc
  exact ⟨rfl, fun id i => by rw [find_mem h2, h3]; rfl⟩

/-- The published routing of a valid scene.  The output for loudspeaker `l` is the signal of the last channel, in the
order of the objects and of the channels within an object, that asks for it; a routing exists exactly if such a channel
exists.  A channel takes part if its signal number is not greater than the number of object channels. -/
theorem routing_is_last_request (a : Array) (ha : a.Valid) (n : Nat) (c : Calc) (hc : construct n a = .ok c)
    (objects : List Obj) (hv : ∀ o ∈ objects, o.Valid) :
    ∃ c', process c (some objects) = (c', true, .ok ()) ∧ c'.outChanged = true ∧
      (c'.front.map Entry.output).Pairwise (· < ·) ∧
      (∀ i l, (⟨i, l⟩ : Entry) ∈ c'.front ↔
        ((objects.flatMap fun o => o.requests c.lookup.find n).filter (fun r => r.2 == l)).getLast? = some (i, l)) := by
  obtain ⟨hn, _⟩ := construct_lookup ha hc
  have hg : Graph [] (fun _ => none) := ⟨List.Pairwise.nil, by simp⟩
  obtain ⟨h1, h2⟩ := routeObjects_graph c objects hv [] _ hg
  rw [hn] at h2
  refine ⟨{ c with back := c.front, front := (processObjects c objects).1, outChanged := true }, ?_, rfl, ?_, ?_⟩
  · unfold process processObjects
    cases hr : forEach (routeObject c) objects [] with
    | mk r e =>
      rw [hr] at h1
      simp only at h1
      subst h1
      simp only [hr]
  · rw [List.pairwise_map]
    exact h2.ordered
  · intro i l
    have := h2.mem ⟨i, l⟩
    rw [show (processObjects c objects).1 = (forEach (routeObject c) objects []).1 from rfl, this, addAll_last]
    cases hl : ((objects.flatMap fun o => o.requests c.lookup.find n).filter (fun r => r.2 == l)).getLast? with
    | none => simp
    | some r =>
      have hm := List.mem_of_getLast? hl
      have : r.2 = l := by simpa using (List.mem_filter.mp hm).2
      simp only [Option.some.injEq]
      constructor
      · intro h; rw [← h, ← this]
      · intro h; rw [h]

/-- The requests are those of the scene: channel `k` of an object with signal `ch` and the single output id of a regular
loudspeaker. -/
theorem requests_exact (a : Array) (ha : a.Valid) (n : Nat) (c : Calc) (hc : construct n a = .ok c)
    (objects : List Obj) (ch l : Nat) :
    (ch, l) ∈ (objects.flatMap fun o => o.requests c.lookup.find n) ↔
      ∃ o ∈ objects, ∃ k id, o.Asks k ch id ∧ ch ≤ n ∧ a.Names id l := by
  obtain ⟨_, h2⟩ := construct_lookup ha hc
  rw [List.mem_flatMap]
  constructor
  · rintro ⟨o, ho, h⟩
    obtain ⟨k, id, h3, h4, h5⟩ := (requests_mem o _ _ _ _).mp h
    exact ⟨o, ho, k, id, h3, h4, (h2 id l).mp h5⟩
  · rintro ⟨o, ho, k, id, h3, h4, h5⟩
    exact ⟨o, ho, (requests_mem o _ _ _ _).mpr ⟨k, id, h3, h4, (h2 id l).mpr h5⟩⟩

/-- C41, for scenes in which no channel has the number of object channels as its signal index and no two channels ask
for the same loudspeaker: the routings are exactly the requested ones.  Missing from the full property: both
conditions, see `routes_excess_channel` and `shared_loudspeaker_lost`. -/
theorem routes_requested_partial (a : Array) (ha : a.Valid) (n : Nat) (c : Calc) (hc : construct n a = .ok c)
    (objects : List Obj) (hv : ∀ o ∈ objects, o.Valid)
    (hrange : ∀ o ∈ objects, ∀ k id, ¬ o.Asks k n id)
    (hshare : ∀ o ∈ objects, ∀ o' ∈ objects, ∀ k k' ch ch' id, o.Asks k ch id → o'.Asks k' ch' id → ch = ch') :
    ∃ c', process c (some objects) = (c', true, .ok ()) ∧ ∀ ch l,
      (⟨ch, l⟩ : Entry) ∈ c'.front ↔ ∃ o ∈ objects, ∃ k id, o.Asks k ch id ∧ ch < n ∧ a.Names id l := by
  obtain ⟨c', h1, _, _, h4⟩ := routing_is_last_request a ha n c hc objects hv
  refine ⟨c', h1, ?_⟩
  intro ch l
  have hx := requests_exact a ha n c hc objects
  rw [h4]
  constructor
  · intro h
    have hm := List.mem_of_getLast? h
    obtain ⟨o, ho, k, id, h5, h6, h7⟩ := (hx ch l).mp (List.mem_filter.mp hm).1
    refine ⟨o, ho, k, id, h5, ?_, h7⟩
    rcases Nat.lt_or_ge ch n with hlt | hge
    · exact hlt
    · have : ch = n := by omega
      subst this
      exact absurd h5 (hrange o ho k id)
  · rintro ⟨o, ho, k, id, h5, h6, h7⟩
    have hm : (ch, l) ∈ (objects.flatMap fun o => o.requests c.lookup.find n).filter (fun r => r.2 == l) :=
      List.mem_filter.mpr ⟨(hx ch l).mpr ⟨o, ho, k, id, h5, by omega, h7⟩, by simp⟩
    cases hl : ((objects.flatMap fun o => o.requests c.lookup.find n).filter (fun r => r.2 == l)).getLast? with
    | none => rw [List.getLast?_eq_none_iff] at hl; rw [hl] at hm; cases hm
    | some r =>
      have hr := List.mem_filter.mp (List.mem_of_getLast? hl)
      have hr2 : r.2 = l := by simpa using hr.2
      obtain ⟨o', ho', k', id', h8, _, h10⟩ := (hx r.1 r.2).mp hr.1
      have hid : id' = id := by
        have h11 : (id', l) ∈ a.ids := by have := h10.1; rwa [hr2] at this
        have := List.inj_on_of_nodup_map ha.indices h11 h7.1 rfl
        exact congrArg Prod.fst this
      subst hid
      have := hshare o' ho' o ho k' k r.1 ch id' h8 h5
      rw [← this, ← hr2]

/-- Nothing is published while the object port is unchanged. -/
theorem unchanged_input (c : Calc) : process c none = (c, false, .ok ()) := rfl

/-! ### Examples and counterexamples -/

/-- An array with two regular loudspeakers and one virtual one. -/
def stereo : Array := ⟨[("L", 0), ("R", 1), ("V", 2)], 2⟩

theorem stereo_valid : stereo.Valid := by
  refine ⟨by decide, by decide, ?_⟩
  intro i hi
  have : i < 2 := hi
  interval_cases i
  · exact ⟨"L", by decide⟩
  · exact ⟨"R", by decide⟩

/-- A scene: a channel object with three channels, and an object of another type. -/
def scene : List Obj := [⟨true, [3, 1, 0], [["R"], ["V"], ["L"]]⟩, ⟨false, [2], []⟩]

example : ∀ o ∈ scene, o.Valid := by decide

example : (construct 4 stereo >>= fun c => .ok (process c (some scene)).1.front) =
    .ok ([⟨0, 0⟩, ⟨3, 1⟩] : List Entry) := by decide +kernel

/-- Finding: signal index `n` is one too large for `n` object channels, but is routed. -/
theorem routes_excess_channel : ∃ (objects : List Obj) (c c' : Calc), construct 4 stereo = .ok c ∧
    (∀ o ∈ objects, o.Valid) ∧ process c (some objects) = (c', true, .ok ()) ∧ (⟨4, 0⟩ : Entry) ∈ c'.front := by
  refine ⟨[⟨true, [4], [["L"]]⟩], ⟨4, [("L", 0), ("R", 1)], [], [], false⟩,
    ⟨4, [("L", 0), ("R", 1)], [], [⟨4, 0⟩], true⟩, by decide +kernel, by decide, ?_, by simp⟩
  unfold process
  have : processObjects ⟨4, [("L", 0), ("R", 1)], [], [], false⟩ [⟨true, [4], [["L"]]⟩] = ([⟨4, 0⟩], .ok ()) := by
    decide +kernel
  simp only [this]

/-- Finding: if two channels ask for the same loudspeaker, only the last is played. -/
theorem shared_loudspeaker_lost : ∃ (objects : List Obj) (c c' : Calc), construct 4 stereo = .ok c ∧
    (∀ o ∈ objects, o.Valid) ∧ process c (some objects) = (c', true, .ok ()) ∧
    (∃ o ∈ objects, o.Asks 0 2 "L") ∧ stereo.Names "L" 0 ∧ c'.front = [(⟨3, 0⟩ : Entry)] := by
  refine ⟨[⟨true, [2], [["L"]]⟩, ⟨true, [3], [["L"]]⟩], ⟨4, [("L", 0), ("R", 1)], [], [], false⟩,
    ⟨4, [("L", 0), ("R", 1)], [], [⟨3, 0⟩], true⟩, by decide +kernel, by decide, ?_,
    ⟨⟨true, [2], [["L"]]⟩, by simp, rfl, rfl, rfl⟩, ⟨by decide, by decide⟩, rfl⟩
  unfold process
  have : processObjects ⟨4, [("L", 0), ("R", 1)], [], [], false⟩ [⟨true, [2], [["L"]]⟩, ⟨true, [3], [["L"]]⟩] =
      ([⟨3, 0⟩], .ok ()) := by
    decide +kernel
  simp only [this]

/-- Consequence of the first finding: a `SignalRouting` component with `n` inputs that receives a routing with signal
index `n` rejects all of it and keeps its previous routing. -/
theorem excess_channel_blocks_update (s : SignalRouting.State) (front : List Entry) (l : Nat) (hn : s.inputs < 2 ^ 64 - 1)
    (hm : (⟨s.inputs, l⟩ : Entry) ∈ front) : SignalRouting.controlUpdate s (some front) = s := by
  have key : ∀ (es : List Entry) t, (⟨s.inputs, l⟩ : Entry) ∈ es →
      (SignalRouting.insertAll s es t).2 = .throw .invalidArgument := by
    intro es
    induction es with
    | nil => intro t h; cases h
    | cons e es ih =>
      intro t h
      rw [SignalRouting.insertAll]
      rcases List.mem_cons.mp h with rfl | h
      · have : SignalRouting.indexOk s s.inputs l = false := by
          unfold SignalRouting.indexOk RoutingParameter.cInvalidIndex
          have : s.inputs ≠ 18446744073709551615 := by omega
          simp [this]
        simp [this]
      · split_ifs
        · exact ih _ h
        · rfl
  unfold SignalRouting.controlUpdate
  cases s.hasControl with
  | false => rfl
  | true =>
    simp only
    have := key front [] hm
    cases hr : SignalRouting.insertAll s front [] with
    | mk t r =>
      rw [hr] at this
      simp only at this
      subst this
      rfl

/-- An object whose output list is shorter than its channel list makes `process()` throw before anything is published,
and the input stays flagged, so that the next call of `process()` meets the same object vector again. -/
theorem inconsistent_object_blocks (c : Calc) (objects : List Obj) (e : Exn)
    (h : (processObjects c objects).2 = .throw e) :
    (process c (some objects)).2 = (false, .throw e) ∧ (process c (some objects)).1.front = c.front := by
  unfold process
  cases hr : processObjects c objects with
  | mk r x =>
    rw [hr] at h
    simp only at h
    subst h
    simp only [hr]
    exact ⟨by trivial, by trivial⟩

example : (processObjects ⟨4, [("L", 0)], [], [], false⟩ [⟨true, [0, 1], [["L"]]⟩]).2 = .throw .outOfRange := by
  decide +kernel

end Visr.ChannelObject
