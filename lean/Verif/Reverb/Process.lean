import Verif.Reverb.Lemmas

/-!
# Lemmas about `process()` and histories of scenes
-/

namespace Visr.Reverb
open Visr Visr.Rotation

theorem foundIds_eq (scene : List Obj) : foundIds scene = (reverbObjects scene).map Obj.id := by
  unfold reverbObjects
  induction scene with
  | nil => rfl
  | cons o os ih =>
    unfold foundIds
    cases hr : o.reverb
    · simp [hr, ih]
    · by_cases hc : o.channels.length = 1
      · simp [hr, hc, ih]
      · simp [hr, hc, ih]

theorem mem_reverbObjects {scene : List Obj} {o : Obj} :
    o ∈ reverbObjects scene ↔ o ∈ scene ∧ o.reverb = true ∧ ∃ c, o.channels = [c] := by
  unfold reverbObjects
  rw [List.mem_filter, Bool.and_eq_true, beq_iff_eq, List.length_eq_one_iff]

theorem found_nodup {scene : List Obj} (h : ValidIds scene) : (foundIds scene).Nodup := by
  rw [foundIds_eq]
  exact h.1.sublist (List.Sublist.map _ List.filter_sublist)

theorem find_of_mem {scene : List Obj} (h : (scene.map Obj.id).Nodup) {o : Obj} (ho : o ∈ scene) : find scene o.id = some o := by
  unfold find
  induction scene with
  | nil => cases ho
  | cons a as ih =>
    rw [List.map_cons, List.nodup_cons] at h
    rw [List.find?_cons]
    rcases List.mem_cons.1 ho with rfl | ho
    · simp
    · have : a.id ≠ o.id := fun he => h.1 (he ▸ List.mem_map.2 ⟨o, ho, rfl⟩)
      have e : (a.id == o.id) = false := by simpa using this
      rw [e]
      exact ih h.2 ho

/-- The invariant of the calculator. -/
structure Inv (cfg : Cfg) (s : State) : Prop where
  alloc : Allocator.Inv s.alloc
  channels : s.alloc.maxChannels = cfg.n
  work : Routed cfg.n s.work.routing
  shown : Routed cfg.n s.shown.routing
  prev : ∀ ch, s.prev ch = (lastFor s.sent ch).getD { Late.silent with onset := -1 }
  sent : ∀ m ∈ s.sent, m.1 < cfg.n

theorem inv_initial (cfg : Cfg) : Inv cfg (State.initial cfg) :=
  ⟨Allocator.inv_init _, rfl, ⟨by simp [State.initial, Params.initial, RoutingParameter.Ordered], by simp [State.initial, Params.initial]⟩,
    ⟨by simp [State.initial, Params.initial, RoutingParameter.Ordered], by simp [State.initial, Params.initial]⟩,
    fun ch => by simp [State.initial, lastFor], by simp [State.initial]⟩

/-- The channel of an object. -/
def channelOf (a : Allocator.State) (id : ℕ) : ℕ := ((a.lookup.find? fun e => e.1 == id).map Prod.snd).getD 0

theorem channelOf_mem {a : Allocator.State} (h : Allocator.Inv a) {e : ℕ × ℕ} (he : e ∈ a.lookup) : channelOf a e.1 = e.2 := by
  unfold channelOf
  cases hf : a.lookup.find? fun x => x.1 == e.1 with
  | none =>
    have := List.find?_eq_none.1 hf e he
    simp at this
  | some x =>
    have h1 := List.find?_some hf
    have h2 := List.mem_of_find?_eq_some hf
    simp only [beq_iff_eq] at h1
    have := List.inj_on_of_nodup_map (Allocator.keys_nodup a h) h2 he h1
    simp [this]

/-- The allocator knows exactly the reverb objects of the scene. -/
structure Knows (cfg : Cfg) (scene : List Obj) (a : Allocator.State) : Prop where
  inv : Allocator.Inv a
  channels : a.maxChannels = cfg.n
  keys : ∀ k, k ∈ a.lookup.map Prod.fst ↔ k ∈ foundIds scene

theorem Knows.entry {cfg : Cfg} {scene : List Obj} {a : Allocator.State} (h : Knows cfg scene a) (hv : ValidIds scene)
    {e : ℕ × ℕ} (he : e ∈ a.lookup) : ∃ o ∈ reverbObjects scene, o.id = e.1 ∧ who scene a e.2 = some o ∧
      Assigned scene a (some o) e.2 := by
  have := (h.keys e.1).1 (List.mem_map.2 ⟨e, he, rfl⟩)
  rw [foundIds_eq] at this
  obtain ⟨o, ho, heq⟩ := List.mem_map.1 this
  obtain ⟨h1, h2, h3⟩ := mem_reverbObjects.1 ho
  have hg := Allocator.getObject_of_mem a h.inv e he
  have hne : o.id ≠ Allocator.cInvalidObjectId := hv.2 o h1
  refine ⟨o, ho, heq, ?_, ?_, hne, find_of_mem hv.1 h1, h2, h3⟩
  · unfold who
    rw [hg, ← heq, if_neg hne, find_of_mem hv.1 h1]
  · rw [hg, heq]

theorem Knows.assigned {cfg : Cfg} {scene : List Obj} {a : Allocator.State} (h : Knows cfg scene a) (hv : ValidIds scene)
    (ch : ℕ) : Assigned scene a (who scene a ch) ch := by
  rcases Allocator.getObject_cases a ch with ⟨e, he, rfl, -⟩ | ⟨hi, -⟩
  · obtain ⟨o, -, -, h1, h2⟩ := h.entry hv he
    rw [h1]; exact h2
  · unfold who
    rw [if_pos hi]
    exact hi

theorem Knows.who_iff {cfg : Cfg} {scene : List Obj} {a : Allocator.State} (h : Knows cfg scene a) (hv : ValidIds scene)
    (ch : ℕ) (o : Obj) : who scene a ch = some o ↔ o ∈ reverbObjects scene ∧ channelOf a o.id = ch := by
  constructor
  · intro hw
    rcases Allocator.getObject_cases a ch with ⟨e, he, rfl, -⟩ | ⟨hi, -⟩
    · obtain ⟨o', ho', h1, h2, -⟩ := h.entry hv he
      have : o' = o := by rw [h2] at hw; exact Option.some.inj hw
      subst this
      exact ⟨ho', by rw [h1]; exact channelOf_mem h.inv he⟩
    · unfold who at hw
      rw [if_pos hi] at hw
      cases hw
  · rintro ⟨ho, rfl⟩
    have : o.id ∈ a.lookup.map Prod.fst := (h.keys _).2 (by rw [foundIds_eq]; exact List.mem_map.2 ⟨o, ho, rfl⟩)
    obtain ⟨e, he, heq⟩ := List.mem_map.1 this
    obtain ⟨o', ho', h1, h2, -⟩ := h.entry hv he
    have hoo : o' = o := List.inj_on_of_nodup_map hv.1 (mem_reverbObjects.1 ho').1 (mem_reverbObjects.1 ho).1 (by rw [h1, heq])
    rw [← heq, channelOf_mem h.inv he, h2, hoo]

theorem Knows.channel_lt {cfg : Cfg} {scene : List Obj} {a : Allocator.State} (h : Knows cfg scene a)
    {o : Obj} (ho : o ∈ reverbObjects scene) : channelOf a o.id < cfg.n := by
  have : o.id ∈ a.lookup.map Prod.fst := (h.keys _).2 (by rw [foundIds_eq]; exact List.mem_map.2 ⟨o, ho, rfl⟩)
  obtain ⟨e, he, heq⟩ := List.mem_map.1 this
  rw [← heq, channelOf_mem h.inv he, ← h.channels]
  exact Allocator.channel_lt a h.inv e he

/-! ### From the contents of the slots to the specification -/

theorem plays_of_slot {cfg : Cfg} (hreg : cfg.vbap.regular = cfg.lsp) {s : State} {i : ℕ} {r : Reflection}
    (hf : ∃ g, Vbap.gains cfg.eps cfg.vbap r.pos false = .ok g)
    (h : slotAt cfg s.shown s.pan i = slotOf cfg r) : Plays cfg s i r := by
  obtain ⟨g, hg⟩ := hf
  unfold slotAt slotOf at h
  simp only [Slot.mk.injEq] at h
  obtain ⟨h1, h2, h3, h4⟩ := h
  refine ⟨h1, h2, h3, g, hg, fun l hl => ?_⟩
  have := congrFun h4 l
  simp only [hl, if_true, hg] at this
  have hlen := AllRad.gains_length hg
  rw [this, List.getElem?_eq_getElem (by omega), List.getD_eq_getElem?_getD, List.getElem?_eq_getElem (by omega)]
  rfl

theorem mute_of_slot {cfg : Cfg} {s : State} {i : ℕ} (h : slotAt cfg s.shown s.pan i = slotMute) : Mute cfg s i := by
  unfold slotAt slotMute at h
  simp only [Slot.mk.injEq] at h
  obtain ⟨h1, h2, h3, h4⟩ := h
  refine ⟨h1, h2, fun k => by rw [h3]; rfl, fun l hl => ?_⟩
  have := congrFun h4 l
  simpa only [hl, if_true] using this

theorem rendered_of_done {cfg : Cfg} (hreg : cfg.vbap.regular = cfg.lsp) {scene : List Obj} (hv : ValidIds scene) {s : State}
    (hk : Knows cfg scene s.alloc) (hr : Routed cfg.n s.work.routing) (hf : ∀ o ∈ reverbObjects scene, Fits cfg o)
    (hd : ∀ c < cfg.n, Done cfg (who scene s.alloc c) s c) : Rendered cfg s.swap scene (channelOf s.alloc) := by
  have hw := fun ch o => hk.who_iff hv ch o
  have hdo : ∀ o ∈ reverbObjects scene, Done cfg (some o) s (channelOf s.alloc o.id) := by
    intro o ho
    have := hd _ (hk.channel_lt ho)
    rwa [(hw _ o).2 ⟨ho, rfl⟩] at this
  refine ⟨fun o ho => hk.channel_lt ho, ?_, ?_, ?_, ?_, ?_, ?_⟩
  · intro o ho o' ho' he
    have h1 := (hw _ o).2 ⟨ho, rfl⟩
    have h2 := (hw _ o').2 ⟨ho', rfl⟩
    rw [he, h2] at h1
    exact (Option.some.inj h1).symm
  · intro e
    show e ∈ s.work.routing ↔ _
    constructor
    · intro he
      have h1 := (RoutingParameter.find_some_iff hr.ordered e.output e).2 ⟨he, rfl⟩
      rw [(hd _ (hr.lt e he)).routing] at h1
      obtain ⟨o, h2, h3⟩ := Option.bind_eq_some_iff.1 h1
      obtain ⟨h4, h5⟩ := (hw _ _).1 h2
      refine ⟨o, h4, ?_, h5⟩
      obtain ⟨-, -, c, hc⟩ := mem_reverbObjects.1 h4
      rw [hc] at h3 ⊢
      simp only [List.head?_cons, Option.map_some, Option.some.injEq] at h3
      rw [← h3]
    · rintro ⟨o, ho, h1, h2⟩
      have := (hdo o ho).routing
      rw [h2] at this
      simp only [h1, Option.bind_some, List.head?_cons, Option.map_some] at this
      exact ((RoutingParameter.find_some_iff hr.ordered _ _).1 this).1
  · intro o ho j r hj
    have hlt : j < o.reflections.length := (List.getElem?_eq_some_iff.1 hj).1
    have hj' : j < cfg.refl := lt_of_lt_of_le hlt (hf o ho).1
    refine ⟨hj', plays_of_slot hreg ((hf o ho).2 r (List.mem_of_getElem? hj)) ?_⟩
    have := (hdo o ho).slots j hj'
    simp only [slotFor, Option.bind_some, hj] at this
    exact this
  · intro o ho j h1 h2
    apply mute_of_slot
    have := (hdo o ho).slots j h2
    simp only [slotFor, Option.bind_some, List.getElem?_eq_none h1] at this
    exact this
  · intro o ho
    have h1 := (hdo o ho).lateGains
    exact ⟨by simpa [State.swap] using h1, (hdo o ho).lateDelays⟩
  · intro ch hch hno
    have hnone : who scene s.alloc ch = none := by
      cases h : who scene s.alloc ch with
      | none => rfl
      | some o =>
        obtain ⟨h1, h2⟩ := (hw _ _).1 h
        exact absurd h2 (hno o h1)
    have h := hd ch hch
    rw [hnone] at h
    refine ⟨by simpa [State.swap] using h.lateGains, h.lateDelays, fun j hj => ?_⟩
    apply mute_of_slot
    have := h.slots j hj
    simp only [slotFor, Option.bind_none] at this
    exact this

/-! ### `process()` -/

theorem lastFor_none {msgs : List (ℕ × Late)} {n ch : ℕ} (h : ∀ m ∈ msgs, m.1 < n) (hc : n ≤ ch) : lastFor msgs ch = none := by
  unfold lastFor
  rw [List.find?_eq_none.2]
  · rfl
  · intro x hx
    have := h x (List.mem_reverse.1 hx)
    simp only [beq_iff_eq]
    omega

/-- What one call of `process()` does. -/
structure Call (cfg : Cfg) (scene : List Obj) (s s' : State) (r : Outcome Unit) : Prop where
  inv : Inv cfg s'
  many : cfg.n < (reverbObjects scene).length → s' = s ∧ r = .throw .runtimeError
  ok : (reverbObjects scene).length ≤ cfg.n → (r = .ok () ↔ ∀ o ∈ reverbObjects scene, Fits cfg o)
  shown : r ≠ .ok () → s'.shown = s.shown
  rendered : r = .ok () → Knows cfg scene s'.alloc ∧ Rendered cfg s' scene (channelOf s'.alloc)
  late : r = .ok () → ∀ ch < cfg.n, Close cfg.limit (s'.prev ch) (lateOf (who scene s'.alloc ch))
  kept : (reverbObjects scene).length ≤ cfg.n → ∀ e ∈ s.alloc.lookup, e.1 ∈ foundIds scene → e ∈ s'.alloc.lookup
  sent : ∃ new : List (ℕ × Late), s'.sent = s.sent ++ new ∧ (new.map Prod.fst).Pairwise (· < ·) ∧
    (∀ x ∈ new, x.1 < cfg.n ∧ equal cfg.limit (s.prev x.1) x.2 = false ∧ x.2 = lateOf (who scene s'.alloc x.1))

theorem process_call {cfg : Cfg} (hreg : cfg.vbap.regular = cfg.lsp) (h0 : 0 ≤ cfg.limit) {s : State} (hs : Inv cfg s)
    {scene : List Obj} (hv : ValidIds scene) : Call cfg scene s (process cfg s scene).1 (process cfg s scene).2 := by
  have hlen : (foundIds scene).length = (reverbObjects scene).length := by rw [foundIds_eq, List.length_map]
  by_cases hm : (foundIds scene).length > cfg.n
  · have e : process cfg s scene = (s, .throw .runtimeError) := by
      unfold process
      simp only
      rw [if_pos hm]
    rw [e]
    refine ⟨hs, fun _ => ⟨rfl, rfl⟩, fun h => by omega, fun _ => rfl, fun h => by simp at h, fun h => by simp at h, fun h => by omega,
      [], by simp, by simp, by simp⟩
  · obtain ⟨a1, a2, a3, a4, a5⟩ := Allocator.setObjects_spec s.alloc hs.alloc (foundIds scene) (found_nodup hv)
      (by rw [hs.channels]; omega)
    have e : process cfg s scene =
        (match channelLoop cfg scene cfg.n 0 { s with alloc := (Allocator.setObjects s.alloc (foundIds scene)).1 } with
          | (s, .ok ()) => (s.swap, .ok ())
          | r => r) := by
      unfold process
      simp only
      rw [if_neg hm]
      generalize Allocator.setObjects s.alloc (foundIds scene) = x at a1
      obtain ⟨a, r⟩ := x
      simp only at a1
      subst a1
      rfl
    generalize (Allocator.setObjects s.alloc (foundIds scene)).1 = a at a2 a3 a4 a5 e
    have hk : Knows cfg scene a := ⟨a2, a3.trans hs.channels, a4⟩
    obtain ⟨b1, b2⟩ := channelLoop_ok (cfg := cfg) h0 (scene := scene) (who := who scene a) cfg.n 0 { s with alloc := a }
      (by omega) hs.work (fun c _ => hk.assigned hv c) (fun c hc => by omega)
    have b3 := channelLoop_steps cfg scene cfg.n 0 { s with alloc := a } (by omega)
    generalize channelLoop cfg scene cfg.n 0 { s with alloc := a } = y at e b1 b2 b3
    obtain ⟨s', r⟩ := y
    simp only at b1 b2 b3
    obtain ⟨c1, c2, c3, new, c4, c5, c6, c7⟩ := b3
    simp only at c1 c2 c3 c4 c6 c7
    have hprev : ∀ ch, s'.prev ch = (lastFor s'.sent ch).getD { Late.silent with onset := -1 } := by
      intro ch
      rw [c7, c4, lastFor_append, hs.prev]
      cases lastFor new ch <;> simp
    have hsent : ∀ m ∈ s'.sent, m.1 < cfg.n := by
      intro m hm
      rw [c4] at hm
      rcases List.mem_append.1 hm with hm | hm
      · exact hs.sent m hm
      · have := (c6 m hm).2.1
        omega
    have hfits : r = .ok () ↔ ∀ o ∈ reverbObjects scene, Fits cfg o := by
      rw [b1]
      constructor
      · intro h o ho
        exact h _ (Nat.zero_le _) (hk.channel_lt ho) o ((hk.who_iff hv _ o).2 ⟨ho, rfl⟩)
      · intro h c _ _ o ho
        exact h o ((hk.who_iff hv _ o).1 ho).1
    have hnew : ∃ new : List (ℕ × Late), s'.sent = s.sent ++ new ∧ (new.map Prod.fst).Pairwise (· < ·) ∧
        (∀ x ∈ new, x.1 < cfg.n ∧ equal cfg.limit (s.prev x.1) x.2 = false ∧ x.2 = lateOf (who scene s'.alloc x.1)) :=
      ⟨new, c4, c5, fun x hx => ⟨by have := (c6 x hx).2.1; omega, (c6 x hx).2.2.1, by rw [c1]; exact (c6 x hx).2.2.2⟩⟩
    by_cases hr : r = .ok ()
    · subst hr
      simp only at e
      rw [e]
      have hd := b2 rfl
      rw [← c1] at hd
      refine ⟨⟨c1 ▸ a2, c1 ▸ hk.channels, ?_, c3 hs.work, hprev, hsent⟩, fun h => by omega, fun _ => hfits, fun h => absurd rfl h,
        fun _ => ⟨?_, rendered_of_done hreg hv (c1.symm ▸ hk) (c3 hs.work) (hfits.1 rfl) hd⟩, fun _ ch hch => (hd ch hch).late,
        fun _ x hx hxi => ?_, hnew⟩
      · show Routed cfg.n s'.shown.routing
        rw [c2]; exact hs.shown
      · exact c1.symm ▸ hk
      · show x ∈ s'.alloc.lookup
        rw [c1]; exact a5 x hx hxi
    · have e' : process cfg s scene = (s', r) := by
        rw [e]
        rcases r with ⟨⟩ | x | _
        · exact absurd rfl hr
        · rfl
        · rfl
      rw [e']
      exact ⟨⟨c1 ▸ a2, c1 ▸ hk.channels, c3 hs.work, c2 ▸ hs.shown, hprev, hsent⟩, fun h => by omega, fun _ => hfits, fun _ => c2,
        fun h => absurd h hr, fun h => absurd h hr, fun _ x hx hxi => c1 ▸ a5 x hx hxi, hnew⟩

end Visr.Reverb
