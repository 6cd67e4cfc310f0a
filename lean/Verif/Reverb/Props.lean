import Verif.Reverb.Process
import Verif.Vbap.Props
import Verif.AllRad.Props

/-!
# C62 and C63: the reverberation parameters shown to the renderer are those of the scene
-/

namespace Visr.Reverb
open Visr Visr.Rotation

/-- The state after a history of scenes, some of which may have been rejected. -/
noncomputable def after (cfg : Cfg) (history : List (List Obj)) : State := final (process cfg) (State.initial cfg) history

variable {eps limit : ℝ} {positions : List (Vec ℝ)} {regular : ℕ} {triplets : List (ℕ × ℕ × ℕ)} {is2D : Bool}
  {rerouting : ℕ → ℕ → ℝ} {n refl sections align : ℕ} {cfg : Cfg}

/-- What a successful `setup()` fixes. -/
theorem setup_spec (h : setup eps limit positions regular triplets is2D rerouting n refl sections align = .ok cfg) :
    cfg.vbap.regular = cfg.lsp ∧ cfg.limit = limit ∧ cfg.n = n ∧ cfg.refl = refl ∧ cfg.eps = eps ∧ cfg.lsp = regular ∧
      sections = 10 ∧ Vbap.Vbap.create eps positions regular triplets is2D rerouting ⟨0, 0, 0⟩ = .ok cfg.vbap := by
  unfold setup at h
  split at h
  · cases h
  · rename_i hs
    cases hc : Vbap.Vbap.create eps positions regular triplets is2D rerouting ⟨0, 0, 0⟩ with
    | ok v =>
      rw [hc, Outcome.ok_bind] at h
      simp only [Outcome.ok.injEq] at h
      subst h
      obtain ⟨-, h2, -⟩ := Vbap.setListener_spec hc
      exact ⟨h2, rfl, rfl, rfl, rfl, rfl, by omega, rfl⟩
    | throw e => rw [hc] at h; cases h
    | ub => rw [hc] at h; cases h

theorem inv_after (hreg : cfg.vbap.regular = cfg.lsp) (h0 : 0 ≤ cfg.limit) {history : List (List Obj)}
    (hh : ∀ scene ∈ history, ValidIds scene) : Inv cfg (after cfg history) := by
  unfold after
  suffices ∀ s, Inv cfg s → Inv cfg (final (process cfg) s history) from this _ (inv_initial cfg)
  induction history with
  | nil => exact fun s h => h
  | cons a as ih =>
    intro s h
    exact ih (fun x hx => hh x (List.mem_cons_of_mem _ hx)) _ (process_call hreg h0 h (hh a (List.mem_cons_self ..))).inv

/-- **C62.** After any history of scenes, a scene with more reverb objects than rendering channels is refused and changes
nothing. Otherwise the call succeeds exactly if all reverb objects can be rendered, and then the receivers see the
parameters of exactly this scene: each reverb object on a channel of its own, with its signal, its reflections, and
silence everywhere else. A call that fails does not change the parameters that were exchanged with the receivers. -/
theorem scene_rendered_partial (hc : setup eps limit positions regular triplets is2D rerouting n refl sections align = .ok cfg)
    (h0 : 0 ≤ limit) (history : List (List Obj)) (hh : ∀ scene ∈ history, ValidIds scene) (scene : List Obj) (hv : ValidIds scene) :
    let s := after cfg history
    let r := process cfg s scene
    (n < (reverbObjects scene).length → r = (s, .throw .runtimeError)) ∧
    ((reverbObjects scene).length ≤ n →
      (r.2 = .ok () ↔ ∀ o ∈ reverbObjects scene, Fits cfg o) ∧ (r.2 = .ok () → ∃ place, Rendered cfg r.1 scene place)) ∧
    (r.2 ≠ .ok () → r.1.shown = s.shown) := by
  obtain ⟨s1, s2, s3, -, -, -, -, -⟩ := setup_spec hc
  intro s r
  have hcall := process_call s1 (s2 ▸ h0) (inv_after s1 (s2 ▸ h0) hh) hv
  refine ⟨fun h => ?_, fun h => ⟨?_, fun hr => ⟨_, (hcall.rendered hr).2⟩⟩, hcall.shown⟩
  · obtain ⟨a, b⟩ := hcall.many (s3 ▸ h)
    exact Prod.ext a b
  · exact hcall.ok (s3 ▸ h)

/-- **C62**, stability: an object which is in two consecutive scenes keeps its rendering channel, and so its delay lines,
filters and gains are not handed to another object. -/
theorem places_stable (hc : setup eps limit positions regular triplets is2D rerouting n refl sections align = .ok cfg)
    (h0 : 0 ≤ limit) (history : List (List Obj)) (hh : ∀ scene ∈ history, ValidIds scene) (a b : List Obj)
    (ha : ValidIds a) (hb : ValidIds b) :
    let ra := process cfg (after cfg history) a
    let rb := process cfg ra.1 b
    ra.2 = .ok () → rb.2 = .ok () → ∃ place place', Rendered cfg ra.1 a place ∧ Rendered cfg rb.1 b place' ∧
      ∀ o ∈ reverbObjects a, ∀ o' ∈ reverbObjects b, o.id = o'.id → place o.id = place' o'.id := by
  obtain ⟨s1, s2, s3, -, -, -, -, -⟩ := setup_spec hc
  intro ra rb hra hrb
  have ca := process_call s1 (s2 ▸ h0) (inv_after s1 (s2 ▸ h0) hh) ha
  have cb := process_call s1 (s2 ▸ h0) ca.inv hb
  obtain ⟨ka, pa⟩ := ca.rendered hra
  obtain ⟨kb, pb⟩ := cb.rendered hrb
  refine ⟨_, _, pa, pb, fun o ho o' ho' he => ?_⟩
  have hle : (reverbObjects b).length ≤ cfg.n := by
    by_contra hgt
    have := (cb.many (by omega)).2
    rw [hrb] at this
    cases this
  have h1 : o.id ∈ ra.1.alloc.lookup.map Prod.fst := (ka.keys _).2 (by rw [foundIds_eq]; exact List.mem_map.2 ⟨o, ho, rfl⟩)
  obtain ⟨e, hem, hee⟩ := List.mem_map.1 h1
  have h2 : e ∈ rb.1.alloc.lookup := cb.kept hle e hem (by
    rw [foundIds_eq, hee, he]; exact List.mem_map.2 ⟨o', ho', rfl⟩)
  rw [← he, ← hee]
  exact (channelOf_mem ka.inv hem).trans (channelOf_mem kb.inv h2).symm

/-- **C62**, panning: for a 3D array without virtual loudspeakers whose triplets are proper, a reflection in the direction of
one of the triplets is played with unit power, with non-negative gains, and from its direction. -/
theorem reflection_direction (hc : setup eps limit positions regular triplets is2D rerouting n refl sections align = .ok cfg)
    (heps : 0 < eps) (h2 : is2D = false) (hr : regular = positions.length) (hd : ∀ l ∈ positions, eps ≤ (l.sub ⟨0, 0, 0⟩).norm)
    (hp : ∀ t ∈ triplets, Vbap.Proper positions ⟨0, 0, 0⟩ t) {s : State} {i : ℕ} {r : Reflection} (h : Plays cfg s i r)
    (hin : ∃ t ∈ triplets, Vbap.InCone positions ⟨0, 0, 0⟩ t r.pos) (hfar : 2 * eps ≤ r.pos.norm) :
    (∑ l ∈ Finset.range positions.length, s.pan (l * cfg.stride + i) ^ 2 = 1) ∧
    (∀ l < positions.length, 0 ≤ s.pan (l * cfg.stride + i)) ∧
    ∃ k : ℝ, 0 < k ∧ Vbap.SumsTo positions ⟨0, 0, 0⟩ (fun l => s.pan (l * cfg.stride + i)) (r.pos.scale k) := by
  obtain ⟨s1, s2, s3, s4, s5, s6, s7, s8⟩ := setup_spec hc
  obtain ⟨g, hg, g1, g2, k, hk, g3⟩ := Vbap.inside_unit_power s8 h2 heps hr hd hp r.pos false r.pos (by simp [Vec.sub]) hin hfar
  obtain ⟨-, -, -, g', hg', hl⟩ := h
  rw [s5, hg] at hg'
  cases hg'
  have hlen : g.length = positions.length := by rw [AllRad.gains_length hg, s1, s6, hr]
  have hget : ∀ l < positions.length, s.pan (l * cfg.stride + i) = g.getD l 0 := by
    intro l hl'
    have := hl l (by rw [s6, hr]; exact hl')
    simp [this]
  refine ⟨?_, ?_, k, hk, ?_⟩
  · rw [Finset.sum_congr rfl fun l hl' => by rw [hget l (Finset.mem_range.1 hl')], ← g1, Vbap.power, ← hlen]
    clear hl hget g1 g2 g3 hg hlen
    induction g with
    | nil => simp
    | cons a as ih =>
      rw [List.length_cons, Finset.sum_range_succ', List.map_cons, List.sum_cons]
      simp only [List.getD_cons_succ, List.getD_cons_zero]
      rw [ih, add_comm]
  · intro l hl'
    rw [hget l hl']
    apply g2
    simp [hlen, hl']
  · unfold Vbap.SumsTo at g3 ⊢
    obtain ⟨x1, x2, x3⟩ := g3
    refine ⟨Eq.trans ?_ x1, Eq.trans ?_ x2, Eq.trans ?_ x3⟩ <;>
      exact Finset.sum_congr rfl fun l hl' => by
        show s.pan (l * cfg.stride + i) * _ = g.getD l 0 * _
        rw [hget l (Finset.mem_range.1 hl')]

/-- **C63.** Each successful call sends at most one message with late reverb parameters per rendering channel. A message has
the parameters of the object of the channel (silence if it has none), and differs by more than the tolerance from
the last message of that channel. After the call the last message of every rendering channel agrees, up to the tolerance,
with the parameters of its object. -/
theorem late_messages (hc : setup eps limit positions regular triplets is2D rerouting n refl sections align = .ok cfg)
    (h0 : 0 ≤ limit) (h1 : limit < 1) (history : List (List Obj)) (hh : ∀ scene ∈ history, ValidIds scene) (scene : List Obj)
    (hv : ValidIds scene) (hon : ∀ o ∈ scene, 0 ≤ o.late.onset) :
    let s := after cfg history
    let r := process cfg s scene
    r.2 = .ok () → ∃ place, Rendered cfg r.1 scene place ∧
      (∃ new, r.1.sent = s.sent ++ new ∧ (new.map Prod.fst).Pairwise (· < ·) ∧ ∀ x ∈ new, x.1 < n ∧
        (∀ p, lastFor s.sent x.1 = some p → ¬ Close limit p x.2) ∧
        ((∃ o ∈ reverbObjects scene, place o.id = x.1 ∧ x.2 = o.late) ∨
          ((∀ o ∈ reverbObjects scene, place o.id ≠ x.1) ∧ x.2 = Late.silent))) ∧
      (∀ o ∈ reverbObjects scene, ∃ p, lastFor r.1.sent (place o.id) = some p ∧ Close limit p o.late) ∧
      (∀ ch < n, (∀ o ∈ reverbObjects scene, place o.id ≠ ch) → ∃ p, lastFor r.1.sent ch = some p ∧ Close limit p Late.silent) := by
  obtain ⟨s1, s2, s3, -, -, -, -, -⟩ := setup_spec hc
  intro s r hr
  subst s2 s3
  have hi : Inv cfg s := inv_after s1 h0 hh
  have hcall : Call cfg scene s r.1 r.2 := process_call s1 h0 hi hv
  obtain ⟨hk, hp⟩ := hcall.rendered hr
  have hlast : ∀ ch < cfg.n, ∃ p, lastFor r.1.sent ch = some p ∧ Close cfg.limit p (lateOf (who scene r.1.alloc ch)) := by
    intro ch hch
    have hcl := hcall.late hr ch hch
    rw [hcall.inv.prev ch] at hcl
    cases hl : lastFor r.1.sent ch with
    | some p => rw [hl] at hcl; exact ⟨p, rfl, hcl⟩
    | none =>
      exfalso
      rw [hl] at hcl
      have h2 := hcl.1
      have h3 : 0 ≤ (lateOf (who scene r.1.alloc ch)).onset := by
        cases hw : who scene r.1.alloc ch with
        | none => exact le_refl (0 : ℝ)
        | some o => exact hon o (mem_reverbObjects.1 ((hk.who_iff hv _ _).1 hw).1).1
      simp only [Option.getD_none] at h2
      rw [abs_le] at h2
      linarith
  have hnone : ∀ ch, (∀ o ∈ reverbObjects scene, channelOf r.1.alloc o.id ≠ ch) → who scene r.1.alloc ch = none := by
    intro ch h
    cases hw : who scene r.1.alloc ch with
    | none => rfl
    | some o =>
      obtain ⟨h3, h4⟩ := (hk.who_iff hv _ _).1 hw
      exact absurd h4 (h o h3)
  refine ⟨_, hp, ?_, ?_, ?_⟩
  · obtain ⟨new, n1, n2, n3⟩ := hcall.sent
    refine ⟨new, n1, n2, fun x hx => ⟨(n3 x hx).1, fun p hpl hcl => ?_, ?_⟩⟩
    · have := (n3 x hx).2.1
      rw [hi.prev, hpl] at this
      simp only [Option.getD_some] at this
      rw [(equal_iff h0 _ _).2 hcl] at this
      cases this
    · have h5 := (n3 x hx).2.2
      cases hw : who scene r.1.alloc x.1 with
      | none =>
        rw [hw] at h5
        refine .inr ⟨fun o ho he => ?_, h5⟩
        rw [(hk.who_iff hv _ _).2 ⟨ho, he⟩] at hw
        cases hw
      | some o =>
        rw [hw] at h5
        obtain ⟨h3, h4⟩ := (hk.who_iff hv _ _).1 hw
        exact .inl ⟨o, h3, h4, h5⟩
  · intro o ho
    obtain ⟨p, p1, p2⟩ := hlast _ (hk.channel_lt ho)
    rw [(hk.who_iff hv _ o).2 ⟨ho, rfl⟩] at p2
    exact ⟨p, p1, p2⟩
  · intro ch hch hno
    obtain ⟨p, p1, p2⟩ := hlast _ hch
    rw [hnone ch hno] at p2
    exact ⟨p, p1, p2⟩

/-- **C63**, no repetition: if the scene does not change, the second call sends nothing. -/
theorem unchanged_scene_silent (hc : setup eps limit positions regular triplets is2D rerouting n refl sections align = .ok cfg)
    (h0 : 0 ≤ limit) (history : List (List Obj)) (hh : ∀ scene ∈ history, ValidIds scene) (scene : List Obj) (hv : ValidIds scene) :
    let r := process cfg (after cfg history) scene
    r.2 = .ok () → (process cfg r.1 scene).2 = .ok () ∧ (process cfg r.1 scene).1.sent = r.1.sent := by
  obtain ⟨s1, s2, s3, -, -, -, -, -⟩ := setup_spec hc
  intro r hr
  subst s2 s3
  have hcall : Call cfg scene _ r.1 r.2 := process_call s1 h0 (inv_after s1 h0 hh) hv
  have hcall2 := process_call s1 h0 hcall.inv hv
  have hle : (reverbObjects scene).length ≤ cfg.n := by
    by_contra hgt
    have := (hcall.many (by omega)).2
    rw [hr] at this
    cases this
  have hr2 := (hcall2.ok hle).2 ((hcall.ok hle).1 hr)
  refine ⟨hr2, ?_⟩
  obtain ⟨k1, -⟩ := hcall.rendered hr
  obtain ⟨k2, -⟩ := hcall2.rendered hr2
  have hwho : ∀ ch, who scene (process cfg r.1 scene).1.alloc ch = who scene r.1.alloc ch := by
    intro ch
    apply Option.ext
    intro o
    rw [k2.who_iff hv, k1.who_iff hv]
    constructor
    · rintro ⟨h3, h4⟩
      refine ⟨h3, ?_⟩
      have hm : o.id ∈ r.1.alloc.lookup.map Prod.fst := (k1.keys _).2 (by rw [foundIds_eq]; exact List.mem_map.2 ⟨o, h3, rfl⟩)
      obtain ⟨e, hem, hee⟩ := List.mem_map.1 hm
      have := hcall2.kept hle e hem ((k1.keys _).1 (hee ▸ hm))
      rw [← hee, channelOf_mem k1.inv hem, ← h4, ← hee, channelOf_mem k2.inv this]
    · rintro ⟨h3, h4⟩
      refine ⟨h3, ?_⟩
      have hm : o.id ∈ r.1.alloc.lookup.map Prod.fst := (k1.keys _).2 (by rw [foundIds_eq]; exact List.mem_map.2 ⟨o, h3, rfl⟩)
      obtain ⟨e, hem, hee⟩ := List.mem_map.1 hm
      have := hcall2.kept hle e hem ((k1.keys _).1 (hee ▸ hm))
      rw [← h4, ← hee, channelOf_mem k1.inv hem, channelOf_mem k2.inv this]
  obtain ⟨new, n1, -, n3⟩ := hcall2.sent
  cases hnew : new with
  | nil => rw [n1, hnew, List.append_nil]
  | cons x xs =>
    exfalso
    obtain ⟨m1, m2, m3⟩ := n3 x (by rw [hnew]; exact List.mem_cons_self ..)
    rw [m3, hwho] at m2
    rw [(equal_iff h0 _ _).2 (hcall.late hr x.1 m1)] at m2
    cases m2

/-! ### Concrete cases -/

/-- Late reverberation of the examples. -/
noncomputable def demoLate : Late := ⟨1 / 10, fun _ => 1 / 2, fun _ => -3, fun _ => 1 / 50⟩

/-- A reflection from the direction `(1, 2, 3)`. -/
noncomputable def demoReflection : Reflection := ⟨⟨1, 2, 3⟩, 1 / 100, 1 / 4, fun _ => ⟨1, 0, 0, 0, 0⟩⟩

/-- An object with one reflection and one with none, and an object without reverberation. -/
noncomputable def demoScene : List Obj :=
  [⟨7, [3], true, [demoReflection], demoLate⟩, ⟨9, [4], false, [], demoLate⟩, ⟨8, [0], true, [], demoLate⟩]

/-- Only the second reverb object, with more reflections than the renderer has. -/
noncomputable def demoBad : List Obj := [⟨8, [0], true, [demoReflection, demoReflection], demoLate⟩]

theorem demo_valid : ValidIds demoScene := by
  constructor
  · simp [demoScene]
  · simp [demoScene]

theorem demo_bad_valid : ValidIds demoBad := by
  constructor
  · simp [demoBad]
  · simp [demoBad]

/-- A renderer for two objects with one reflection each. -/
theorem demo_setup : ∃ cfg, setup (1 / 1000) (1 / 1000) AllRad.demoReal.positions 3 [(0, 1, 2)] false (fun _ _ => 0) 2 1 10 4 = .ok cfg := by
  obtain ⟨v, hv⟩ := Vbap.create_ok (eps := 1 / 1000) AllRad.demoReal.positions 3 [(0, 1, 2)] false (fun _ _ => 0) ⟨0, 0, 0⟩
    (by simp [AllRad.demoReal])
  refine ⟨⟨1 / 1000, 1 / 1000, 2, 1, 3, 4, v⟩, ?_⟩
  unfold setup
  rw [if_neg (by simp), hv, Outcome.ok_bind]

theorem demo_inside : ∃ t ∈ [((0 : ℕ), (1 : ℕ), (2 : ℕ))], Vbap.InCone AllRad.demoReal.positions ⟨0, 0, 0⟩ t demoReflection.pos :=
  ⟨(0, 1, 2), by simp, 1, 2, 3, by norm_num, by norm_num, by norm_num, by
    simp [AllRad.demoReal, demoReflection, Vbap.Combination, Vbap.direction, Vec.scale, Vec.sub, Vec.norm, Vec.normSquare]⟩

theorem demo_far : 2 * (1 / 1000 : ℝ) ≤ demoReflection.pos.norm := by
  unfold demoReflection Vec.norm Vec.normSquare
  apply Real.le_sqrt_of_sq_le
  norm_num

theorem demo_distance : ∀ l ∈ AllRad.demoReal.positions, (1 / 1000 : ℝ) ≤ (l.sub ⟨0, 0, 0⟩).norm := by
  simp [AllRad.demoReal, Vec.norm, Vec.normSquare, Vec.sub]; norm_num

theorem demo_proper : ∀ t ∈ [((0 : ℕ), (1 : ℕ), (2 : ℕ))], Vbap.Proper AllRad.demoReal.positions ⟨0, 0, 0⟩ t := by
  simp [AllRad.demoReal, Vbap.Proper, Vbap.triple, Vbap.direction, Vec.scale, Vec.sub, Vec.norm, Vec.normSquare]

theorem demo_fits (hc : setup (1 / 1000) (1 / 1000) AllRad.demoReal.positions 3 [(0, 1, 2)] false (fun _ _ => 0) 2 1 10 4 = .ok cfg) :
    ∀ o ∈ reverbObjects demoScene, Fits cfg o := by
  obtain ⟨s1, s2, s3, s4, s5, s6, s7, s8⟩ := setup_spec hc
  obtain ⟨g, hg, -⟩ := Vbap.inside_unit_power s8 rfl (by norm_num) (by simp [AllRad.demoReal]) demo_distance demo_proper
    demoReflection.pos false demoReflection.pos (by simp [Vec.sub]) demo_inside demo_far
  intro o ho
  obtain ⟨h1, h2, -⟩ := mem_reverbObjects.1 ho
  simp only [demoScene, List.mem_cons, List.not_mem_nil, or_false] at h1
  rcases h1 with rfl | rfl | rfl
  · refine ⟨by simp [s4], fun r hr => ?_⟩
    simp only [List.mem_singleton] at hr
    subst hr
    exact ⟨g, s5 ▸ hg⟩
  · cases h2
  · exact ⟨by simp, fun r hr => by simp at hr⟩

/-- The example scene is rendered: `scene_rendered_partial`, `late_messages` and `reflection_direction` apply to it. -/
theorem demo_rendered (hc : setup (1 / 1000) (1 / 1000) AllRad.demoReal.positions 3 [(0, 1, 2)] false (fun _ _ => 0) 2 1 10 4 = .ok cfg) :
    (process cfg (after cfg []) demoScene).2 = .ok () := by
  have h := (scene_rendered_partial hc (by norm_num) [] (by simp) demoScene demo_valid).2.1 (by simp [reverbObjects, demoScene])
  exact h.1.2 (demo_fits hc)

/-- The first channel shows object 7, which reads input 3, with its reflection; and two messages have been sent. -/
example (hc : setup (1 / 1000) (1 / 1000) AllRad.demoReal.positions 3 [(0, 1, 2)] false (fun _ _ => 0) 2 1 10 4 = .ok cfg) :
    ∃ ch < 2, ⟨3, ch⟩ ∈ (process cfg (after cfg []) demoScene).1.shown.routing ∧
      Plays cfg (process cfg (after cfg []) demoScene).1 ch demoReflection ∧
      ∃ p, lastFor (process cfg (after cfg []) demoScene).1.sent ch = some p ∧ Close (1 / 1000) p demoLate := by
  obtain ⟨s1, s2, s3, s4, s5, s6, s7, s8⟩ := setup_spec hc
  obtain ⟨place, h1, -, h2, -⟩ := late_messages hc (by norm_num) (by norm_num) [] (by simp) demoScene demo_valid
    (by simp [demoScene, demoLate]) (demo_rendered hc)
  have ho : (⟨7, [3], true, [demoReflection], demoLate⟩ : Obj) ∈ reverbObjects demoScene := by
    rw [mem_reverbObjects]; exact ⟨by simp [demoScene], rfl, 3, rfl⟩
  refine ⟨place 7, s3 ▸ h1.range _ ho, (h1.routing _).2 ⟨_, ho, rfl, rfl⟩, ?_, h2 _ ho⟩
  have := (h1.reflections _ ho 0 demoReflection rfl).2
  rw [s4] at this
  simpa using this

/-- **C62 is false for failing calls**: the panning gains are shared, not exchanged. The second scene is rejected because of
its object 8; the receivers keep gain, delay and filters of the reflection of object 7, but its panning gains are
gone. -/
theorem failed_scene_half_applied : ∃ (cfg : Cfg) (history : List (List Obj)) (scene : List Obj) (i : ℕ) (r : Reflection),
    setup (1 / 1000) (1 / 1000) AllRad.demoReal.positions 3 [(0, 1, 2)] false (fun _ _ => 0) 2 1 10 4 = .ok cfg ∧
    (∀ scene ∈ history, ValidIds scene) ∧ ValidIds scene ∧
    (process cfg (after cfg history) scene).2 = .throw .invalidArgument ∧
    Plays cfg (after cfg history) i r ∧ ¬ Plays cfg (process cfg (after cfg history) scene).1 i r := by
  obtain ⟨cfg, hc⟩ := demo_setup
  obtain ⟨s1, s2, s3, s4, s5, s6, s7, s8⟩ := setup_spec hc
  have h0 : 0 ≤ cfg.limit := by rw [s2]; norm_num
  have ef : foundIds demoScene = [7, 8] := rfl
  have call : Call cfg demoScene _ (process cfg (after cfg []) demoScene).1 (process cfg (after cfg []) demoScene).2 :=
    process_call s1 h0 (inv_after s1 h0 (by simp)) demo_valid
  obtain ⟨hk, hp⟩ := call.rendered (demo_rendered hc)
  have hal : (process cfg (after cfg []) demoScene).1.alloc = ⟨2, [(7, 0), (8, 1)], []⟩ := by
    have hok := demo_rendered hc
    unfold process at hok ⊢
    simp only [ef] at hok ⊢
    rw [if_neg (by rw [s3]; simp)] at hok ⊢
    have ea : Allocator.setObjects (after cfg []).alloc [7, 8] = (⟨2, [(7, 0), (8, 1)], []⟩, .ok ()) := by
      show Allocator.setObjects (Allocator.State.init cfg.n) [7, 8] = _
      rw [s3]
      decide +kernel
    rw [ea] at hok ⊢
    simp only at hok ⊢
    have hst := channelLoop_steps cfg demoScene cfg.n 0 { after cfg [] with alloc := ⟨2, [(7, 0), (8, 1)], []⟩ } (by omega)
    generalize channelLoop cfg demoScene cfg.n 0 { after cfg [] with alloc := ⟨2, [(7, 0), (8, 1)], []⟩ } = x at hok hst ⊢
    obtain ⟨s', r⟩ := x
    rcases r with ⟨⟩ | e | _
    · exact hst.alloc
    · cases hok
    · cases hok
  have ho : (⟨7, [3], true, [demoReflection], demoLate⟩ : Obj) ∈ reverbObjects demoScene := by
    rw [mem_reverbObjects]; exact ⟨by simp [demoScene], rfl, 3, rfl⟩
  have hplays := (hp.reflections _ ho 0 demoReflection rfl).2
  have hch : channelOf (process cfg (after cfg []) demoScene).1.alloc 7 = 0 := by
    rw [hal]; decide +kernel
  rw [hch] at hplays
  simp only [Nat.zero_mul, Nat.add_zero] at hplays
  have hinv := call.inv
  have haf : after cfg [demoScene] = (process cfg (after cfg []) demoScene).1 := rfl
  refine ⟨cfg, [demoScene], demoBad, 0, demoReflection, hc, by simp [demo_valid], demo_bad_valid, ?_, haf ▸ hplays, ?_⟩
  all_goals
    rw [haf]
    generalize (process cfg (after cfg []) demoScene).1 = s at hal hinv hplays
    have efb : foundIds demoBad = [8] := rfl
    have eb : Allocator.setObjects s.alloc [8] = (⟨2, [(8, 1)], [0]⟩, .ok ()) := by
      rw [hal]; decide +kernel
    have hrt : Routed cfg.n ({ s with alloc := ⟨2, [(8, 1)], [0]⟩ } : State).work.routing := hinv.work
    obtain ⟨s', e1, d1, -⟩ := (channelStep_ok h0 (scene := demoBad) (s := { s with alloc := ⟨2, [(8, 1)], [0]⟩ }) (ch := 0)
      (by rw [s3]; omega) hrt (w := none) (by show Allocator.getObjectForChannel ⟨2, [(8, 1)], [0]⟩ 0 = _; decide +kernel)).2
      (by simp)
    have st1 := channelStep_step cfg demoBad { s with alloc := ⟨2, [(8, 1)], [0]⟩ } (ch := 0) (by rw [s3]; omega)
    rw [e1] at st1
    have hs'a : s'.alloc = ⟨2, [(8, 1)], [0]⟩ := st1.alloc
    have e2 : ∃ s'', channelStep cfg demoBad s' 1 = (s'', .throw .invalidArgument) ∧ s''.pan = s'.pan := by
      refine ⟨{ s' with work := { s'.work with routing := RoutingParameter.addRouting s'.work.routing ⟨0, 1⟩ } }, ?_, ?_⟩
      · unfold channelStep
        have g1 : Allocator.getObjectForChannel s'.alloc 1 = 8 := by rw [hs'a]; decide +kernel
        simp only [g1]
        rw [if_neg (by decide +kernel)]
        have g2 : find demoBad 8 = some ⟨8, [0], true, [demoReflection, demoReflection], demoLate⟩ := rfl
        rw [g2]
        simp only [if_true]
        unfold processSingleObject
        rw [if_pos (by simp [s4])]
      · rfl
    obtain ⟨s'', e2, e3⟩ := e2
    have ep : process cfg s demoBad = (s'', .throw .invalidArgument) := by
      unfold process
      simp only [efb]
      rw [if_neg (by rw [s3]; simp), eb]
      simp only
      rw [s3, channelLoop, e1]
      simp only
      rw [channelLoop, e2]
    rw [ep]
  · intro hpl
    obtain ⟨q1, -, -⟩ := reflection_direction hc (by norm_num) rfl (by simp [AllRad.demoReal]) demo_distance demo_proper hpl
      demo_inside demo_far
    have hz := d1.slots 0 (by rw [s4]; omega)
    simp only [slotFor, Option.bind_none, slotAt, slotMute, Slot.mk.injEq, Nat.zero_mul, Nat.add_zero] at hz
    have : ∀ l ∈ Finset.range AllRad.demoReal.positions.length, s''.pan (l * cfg.stride + 0) ^ 2 = 0 := by
      intro l hl
      have := congrFun hz.2.2.2 l
      rw [if_pos (by rw [s6]; simpa [AllRad.demoReal] using hl)] at this
      rw [e3]
      simp only [Nat.add_zero]
      rw [this]
      norm_num
    rw [Finset.sum_congr rfl this] at q1
    simp at q1

end Visr.Reverb
