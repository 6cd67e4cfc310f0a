import Verif.ObjectEq.Spec
import Mathlib.Tactic.Common

/-!
# C54: levels and equalisers of objects reach their channels
-/

namespace Visr.ObjectEq
open Visr

variable {K S C : Type}

/-- Shape of the buffers. -/
structure Shape (cfg : Cfg K S C) (b : Buf K C) : Prop where
  gains : b.gains.length = cfg.channels
  eqs : b.eqs.length = cfg.channels
  rows : ∀ r ∈ b.eqs, r.length = cfg.sections

theorem Shape.row {cfg : Cfg K S C} {b : Buf K C} (h : Shape cfg b) {ch : Nat} (hc : ch < cfg.channels) :
    (b.eqs.getD ch []).length = cfg.sections := by
  have hl : ch < b.eqs.length := by rw [h.eqs]; exact hc
  rw [List.getD_eq_getElem?_getD, List.getElem?_eq_getElem hl]
  exact h.rows _ (List.getElem_mem hl)

theorem shape_init (cfg : Cfg K S C) : Shape cfg (Buf.init cfg) := by
  constructor
  · simp [Buf.init]
  · simp [Buf.init]
  · intro r hr
    rw [List.eq_of_mem_replicate hr]; simp

theorem Shape.set {cfg : Cfg K S C} {b : Buf K C} (h : Shape cfg b) (ch : Nat) (v : K) {row : List C}
    (hr : row.length = cfg.sections) : Shape cfg ⟨b.gains.set ch v, b.eqs.set ch row⟩ := by
  refine ⟨by simpa using h.gains, by simpa using h.eqs, ?_⟩
  intro r hm
  rcases List.mem_or_eq_of_mem_set hm with hm | hm
  · exact h.rows r hm
  · rw [hm]; exact hr

/-- Effect of the channel loop. -/
theorem channelLoop_ok {cfg : Cfg K S C} (o : Obj K S) (chs : List Nat) {b : Buf K C} (h : Shape cfg b)
    (hf : ∀ ch ∈ chs, ch < cfg.channels ∧ o.eq.length ≤ cfg.sections) :
    ∃ b', channelLoop cfg o chs b = (b', none) ∧ Shape cfg b' ∧
      (∀ ch, b'.gains[ch]? = if ch ∈ chs then some o.level else b.gains[ch]?) ∧
      (∀ ch, b'.eqs[ch]? = if ch ∈ chs then some (sectionsOf cfg o) else b.eqs[ch]?) := by
  induction chs generalizing b with
  | nil => exact ⟨b, rfl, h, by simp, by simp⟩
  | cons ch chs ih =>
    obtain ⟨h1, h2⟩ := hf ch (by simp)
    have hrow : designRow cfg o.eq (b.eqs.getD ch []) = .ok (sectionsOf cfg o) := by
      rw [designRow, h.row h1, if_neg (by omega), sectionsOf]
    have hlen : (sectionsOf cfg o).length = cfg.sections := by simp [sectionsOf]; omega
    obtain ⟨b', e1, e2, e3, e4⟩ := ih (h.set ch o.level hlen) (fun c hc => hf c (by simp [hc]))
    refine ⟨b', ?_, e2, ?_, ?_⟩
    · simp only [channelLoop]
      rw [if_neg (by omega)]
      simp only [hrow]
      exact e1
    · intro c
      rw [e3]
      by_cases hc : c ∈ chs
      · simp [hc]
      · by_cases hcc : c = ch
        · subst hcc
          have : c < b.gains.length := by rw [h.gains]; exact h1
          simp [hc, this]
        · have : ¬ ch = c := fun e => hcc e.symm
          simp [hc, hcc, List.getElem?_set_ne this]
    · intro c
      rw [e4]
      by_cases hc : c ∈ chs
      · simp [hc]
      · by_cases hcc : c = ch
        · subst hcc
          have : c < b.eqs.length := by rw [h.eqs]; exact h1
          simp [hc, this]
        · have : ¬ ch = c := fun e => hcc e.symm
          simp [hc, hcc, List.getElem?_set_ne this]

theorem owner_cons (o : Obj K S) (os : List (Obj K S)) (ch : Nat) :
    owner (o :: os) ch = (owner os ch).or (if ch ∈ o.channels then some o else none) := by
  unfold owner
  rw [List.filter_cons]
  split_ifs with h1 h2 h2
  · rw [List.getLast?_cons]
    cases (List.filter (fun o => decide (ch ∈ o.channels)) os).getLast? <;> simp
  · exact absurd (by simpa using h1) h2
  · exact absurd (by simpa using h2) h1
  · simp

/-- Effect of the object loop. -/
theorem objectLoop_ok {cfg : Cfg K S C} (os : List (Obj K S)) {b : Buf K C} (h : Shape cfg b) (hf : Fits cfg os) :
    ∃ b', objectLoop cfg os b = (b', none) ∧ Shape cfg b' ∧
      (∀ ch, b'.gains[ch]? = ((owner os ch).map fun o => some o.level).getD b.gains[ch]?) ∧
      (∀ ch, b'.eqs[ch]? = ((owner os ch).map fun o => some (sectionsOf cfg o)).getD b.eqs[ch]?) := by
  induction os generalizing b with
  | nil => exact ⟨b, rfl, h, by simp [owner], by simp [owner]⟩
  | cons o os ih =>
    obtain ⟨b1, e1, e2, e3, e4⟩ := channelLoop_ok o o.channels h (hf o (by simp))
    obtain ⟨b', g1, g2, g3, g4⟩ := ih e2 (fun o' ho' => hf o' (by simp [ho']))
    refine ⟨b', ?_, g2, ?_, ?_⟩
    · simp only [objectLoop, e1]; exact g1
    · intro ch
      rw [g3, owner_cons, e3]
      cases owner os ch with
      | some o' => simp
      | none => by_cases hc : ch ∈ o.channels <;> simp [hc]
    · intro ch
      rw [g4, owner_cons, e4]
      cases owner os ch with
      | some o' => simp
      | none => by_cases hc : ch ∈ o.channels <;> simp [hc]

/-- Exceptions leave the shape of the buffers alone. -/
theorem channelLoop_shape {cfg : Cfg K S C} (o : Obj K S) (chs : List Nat) {b : Buf K C} (h : Shape cfg b) :
    Shape cfg (channelLoop cfg o chs b).1 := by
  induction chs generalizing b with
  | nil => exact h
  | cons ch chs ih =>
    simp only [channelLoop]
    split_ifs with hc
    · exact h
    · have hg : Shape cfg { b with gains := b.gains.set ch o.level } :=
        ⟨by simpa using h.gains, h.eqs, h.rows⟩
      unfold designRow
      rw [h.row (by omega)]
      split_ifs with hl
      · exact hg
      · exact ih (h.set ch o.level (by simp; omega))

theorem objectLoop_shape {cfg : Cfg K S C} (os : List (Obj K S)) {b : Buf K C} (h : Shape cfg b) :
    Shape cfg (objectLoop cfg os b).1 := by
  induction os generalizing b with
  | nil => exact h
  | cons o os ih =>
    have := channelLoop_shape o o.channels h
    unfold objectLoop
    split
    · rename_i b' heq; rw [heq] at this; exact ih this
    · rename_i b' e heq; rw [heq] at this; exact this

theorem Shape.sections {cfg : Cfg K S C} {b : Buf K C} (h : Shape cfg b) (h0 : 0 < cfg.channels) :
    numberOfSections b.eqs = cfg.sections := by
  have hl := h.eqs
  cases hb : b.eqs with
  | nil => rw [hb] at hl; simp at hl; omega
  | cons r rs => exact h.rows r (by rw [hb]; simp)

theorem calculate_shape {cfg : Cfg K S C} (os : List (Obj K S)) {b : Buf K C} (h : Shape cfg b) :
    Shape cfg (calculate cfg os b).1 := by
  unfold calculate
  split_ifs
  · exact h
  · exact h
  · exact objectLoop_shape os ⟨by simpa using h.gains, h.eqs, h.rows⟩

theorem calculate_ok {cfg : Cfg K S C} (h0 : 0 < cfg.channels) (os : List (Obj K S)) {b : Buf K C} (h : Shape cfg b)
    (hf : Fits cfg os) : ∃ b', calculate cfg os b = (b', none) ∧ Shape cfg b' ∧ Shows cfg b' os ∧
      ∀ ch, owner os ch = none → b'.eqs[ch]? = b.eqs[ch]? := by
  obtain ⟨b', e1, e2, e3, e4⟩ := objectLoop_ok (cfg := cfg) os
    (b := { b with gains := List.replicate b.gains.length cfg.zero }) ⟨by simpa using h.gains, h.eqs, h.rows⟩ hf
  refine ⟨b', ?_, e2, ⟨?_, ?_⟩, ?_⟩
  · unfold calculate
    rw [if_neg (by simpa using h.gains), if_neg (by simp [h.eqs, h.sections h0])]
    exact e1
  · apply List.ext_getElem?
    intro ch
    rw [e3]
    by_cases hc : ch < cfg.channels
    · rw [List.getElem?_map, List.getElem?_range hc]
      simp only [levelOf, Option.map_some]
      cases owner os ch with
      | some o => simp
      | none => simp [h.gains, hc]
    · have hl : b'.gains.length ≤ ch := by rw [e2.gains]; omega
      rw [← e3, List.getElem?_eq_none hl, List.getElem?_eq_none (by simp; omega)]
  · intro ch o ho
    rw [e4, ho]; rfl
  · intro ch ho
    rw [e4, ho]; rfl

/-! ### The property -/

/-- The state represents the scene in force and the scene waiting. -/
structure Rep (cfg : Cfg K S C) (s : State K S C) (waiting : Option (List (Obj K S))) (cur : List (Obj K S)) :
    Prop where
  work : Shape cfg s.work
  pub : Shape cfg s.published
  shows : Shows cfg s.published cur
  changed : s.changed = waiting.isSome
  wait : ∀ objects, waiting = some objects → s.objects = objects ∧ Fits cfg objects

theorem rep_init (cfg : Cfg K S C) : Rep cfg (State.init cfg) none [] where
  work := shape_init cfg
  pub := shape_init cfg
  shows := by
    constructor
    · apply List.ext_getElem?
      intro ch
      simp only [State.init, Buf.init, List.getElem?_map]
      by_cases hc : ch < cfg.channels
      · rw [List.getElem?_range hc]; simp [hc, levelOf, owner]
      · simp [hc]
    · intro ch o ho; simp [owner] at ho
  changed := rfl
  wait := by intro o h; cases h

/-- C54: after every sequence of scenes and processing calls, as long as the scenes fit the configuration, all calls
return normally and the receivers see the levels and equalisers of the last scene that was processed: the level of an
object on each of its channels, zero on all other channels, and the equaliser of an object on each of its channels.
Missing: the equalisers of channels without an object are flat, see `unused_channel_equaliser_returns`. -/
theorem scene_applied_partial (cfg : Cfg K S C) (h0 : 0 < cfg.channels) (ops : List (Op K S)) (hf : AllFit cfg ops) :
    (∀ r ∈ (run (step cfg) (State.init cfg) ops).2, r = .ok ()) ∧
    Shows cfg (final (step cfg) (State.init cfg) ops).published (inForce none [] ops) := by
  suffices ∀ (s : State K S C) w cur, Rep cfg s w cur →
      (∀ r ∈ (run (step cfg) s ops).2, r = .ok ()) ∧
      Shows cfg (final (step cfg) s ops).published (inForce w cur ops) from
    this _ _ _ (rep_init cfg)
  induction ops with
  | nil => intro s w cur h; exact ⟨by simp [run], h.shows⟩
  | cons op ops ih =>
    intro s w cur h
    have hf' : AllFit cfg ops := fun op' hop => hf op' (by simp [hop])
    cases op with
    | scene objects =>
      have hfit : Fits cfg objects := hf (.scene objects) (by simp)
      obtain ⟨i1, i2⟩ := ih hf' (step cfg s (.scene objects)).1 (some objects) cur
        ⟨h.work, h.pub, h.shows, rfl, by intro o ho; cases ho; exact ⟨rfl, hfit⟩⟩
      refine ⟨?_, by cases w <;> exact i2⟩
      intro r hr
      rcases List.mem_cons.1 hr with hr | hr
      · exact hr
      · exact i1 r hr
    | process =>
      cases w with
      | none =>
        have hc : s.changed = false := h.changed
        have hs : step cfg s .process = (s, .ok ()) := by simp [step, hc]
        obtain ⟨i1, i2⟩ := ih hf' s none cur h
        rw [final_cons, hs]
        refine ⟨?_, i2⟩
        intro r hr
        simp only [run, hs] at hr
        rcases List.mem_cons.1 hr with hr | hr
        · exact hr
        · exact i1 r hr
      | some objects =>
        have hc : s.changed = true := h.changed
        obtain ⟨ho, hfit⟩ := h.wait objects rfl
        obtain ⟨b', e1, e2, e3, -⟩ := calculate_ok h0 objects h.work hfit
        have hs : step cfg s .process =
            ({ s with work := s.published, published := b', changed := false }, .ok ()) := by
          simp [step, hc, ho, e1]
        obtain ⟨i1, i2⟩ := ih hf' { s with work := s.published, published := b', changed := false } none objects
          ⟨h.pub, e2, e3, rfl, by intro o ho; cases ho⟩
        rw [final_cons, hs]
        refine ⟨?_, i2⟩
        intro r hr
        simp only [run, hs] at hr
        rcases List.mem_cons.1 hr with hr | hr
        · exact hr
        · exact i1 r hr

/-! ### Scenes that do not fit -/

theorem channelLoop_bad {cfg : Cfg K S C} (o : Obj K S) (chs : List Nat) (b : Buf K C) (h : Shape cfg b)
    (hb : ∃ ch ∈ chs, ¬ (ch < cfg.channels ∧ o.eq.length ≤ cfg.sections)) :
    ∃ b' e, channelLoop cfg o chs b = (b', some e) := by
  induction chs generalizing b with
  | nil => obtain ⟨ch, h, -⟩ := hb; cases h
  | cons ch chs ih =>
    simp only [channelLoop]
    split_ifs with hc
    · exact ⟨_, _, rfl⟩
    · unfold designRow
      rw [h.row (by omega)]
      split_ifs with hl
      · exact ⟨_, _, rfl⟩
      · refine ih _ (h.set ch o.level (by simp; omega)) ?_
        obtain ⟨c, hcm, hcb⟩ := hb
        rcases List.mem_cons.1 hcm with e | e
        · subst e; exact absurd ⟨by omega, by omega⟩ hcb
        · exact ⟨c, e, hcb⟩

theorem objectLoop_bad {cfg : Cfg K S C} (os : List (Obj K S)) (b : Buf K C) (h : Shape cfg b) (hb : ¬ Fits cfg os) :
    ∃ b' e, objectLoop cfg os b = (b', some e) := by
  induction os generalizing b with
  | nil => exact absurd (fun o ho => by cases ho) hb
  | cons o os ih =>
    by_cases ho : ∀ ch ∈ o.channels, ch < cfg.channels ∧ o.eq.length ≤ cfg.sections
    · obtain ⟨b', e1, e2, -, -⟩ := channelLoop_ok o o.channels h ho
      simp only [objectLoop, e1]
      refine ih b' e2 (fun hf => hb ?_)
      intro o' ho'
      rcases List.mem_cons.1 ho' with e | e
      · rw [e]; exact ho
      · exact hf o' e
    · push Not at ho
      obtain ⟨ch, hc1, hc2⟩ := ho
      obtain ⟨b', e, h1⟩ := channelLoop_bad o o.channels b h ⟨ch, hc1, fun hh => absurd hh.2 (by have := hc2 hh.1; omega)⟩
      exact ⟨b', e, by simp only [objectLoop, h1]⟩

/-- C54: a scene that does not fit is not applied, not even in part, but it blocks the component: every processing call
throws until another scene arrives. -/
theorem bad_scene_blocks (cfg : Cfg K S C) (ops : List (Op K S)) (objects : List (Obj K S)) (hb : ¬ Fits cfg objects)
    (n : Nat) :
    let s := final (step cfg) (State.init cfg) ops
    let r := run (step cfg) s (.scene objects :: List.replicate n .process)
    (∀ x ∈ r.2.tail, ∃ e, x = .throw e) ∧ r.2.length = n + 1 ∧ r.1.published = s.published := by
  have inv : ∀ s : State K S C, Shape cfg s.work ∧ Shape cfg s.published → ∀ op,
      Shape cfg (step cfg s op).1.work ∧ Shape cfg (step cfg s op).1.published := by
    intro s hs op
    cases op with
    | scene o => exact hs
    | process =>
      simp only [step]
      split_ifs
      · have := calculate_shape s.objects hs.1
        split
        · rename_i b heq; rw [heq] at this; exact ⟨hs.2, this⟩
        · rename_i b e heq; rw [heq] at this; exact ⟨this, hs.2⟩
      · exact hs
  have hs := final_induction (step := step cfg) (P := fun s => Shape cfg s.work ∧ Shape cfg s.published)
    (fun s i h => inv s h i) (s := State.init cfg) ⟨shape_init cfg, shape_init cfg⟩ ops
  intro s
  have key : ∀ n (s' : State K S C), Shape cfg s'.work → s'.objects = objects → s'.changed = true →
      (∀ x ∈ (run (step cfg) s' (List.replicate n .process)).2, ∃ e, x = .throw e) ∧
      (run (step cfg) s' (List.replicate n .process)).2.length = n ∧
      (run (step cfg) s' (List.replicate n .process)).1.published = s'.published := by
    intro n
    induction n with
    | zero => intro s' _ _ _; simp [run]
    | succ n ih =>
      intro s' h1 h2 h3
      have hb : ∃ b' e, calculate cfg objects s'.work = (b', some e) := by
        unfold calculate
        split_ifs
        · exact ⟨_, _, rfl⟩
        · exact ⟨_, _, rfl⟩
        · exact objectLoop_bad objects _ ⟨by simpa using h1.gains, h1.eqs, h1.rows⟩ hb
      obtain ⟨b', e, hc⟩ := hb
      have hsh := calculate_shape objects h1
      rw [hc] at hsh
      have hst : step cfg s' .process = ({ s' with work := b' }, .throw e) := by
        simp only [step, h3, if_true, h2, hc]
      obtain ⟨i1, i2, i3⟩ := ih { s' with work := b' } hsh h2 h3
      rw [List.replicate_succ]
      simp only [run, hst]
      refine ⟨?_, by simp [i2], i3⟩
      intro x hx
      rcases List.mem_cons.1 hx with hx | hx
      · exact ⟨e, hx⟩
      · exact i1 x hx
  obtain ⟨k1, k2, k3⟩ := key n { s with objects := objects, changed := true } hs.1 rfl rfl
  exact ⟨k1, by simpa [run, step] using k2, k3⟩

/-- C54: without object channels every scene, even the empty one, is refused if there are sections. -/
theorem no_channels_blocks (cfg : Cfg K S C) (h0 : cfg.channels = 0) (hs : 0 < cfg.sections)
    (objects : List (Obj K S)) :
    (run (step cfg) (State.init cfg) [.scene objects, .process]).2 = [.ok (), .throw .invalidArgument] := by
  have hc : calculate cfg objects (Buf.init cfg) = (Buf.init cfg, some .invalidArgument) := by
    unfold calculate
    rw [if_neg (by simp [Buf.init]), if_pos]
    right
    simp only [Buf.init, h0, List.replicate_zero, numberOfSections]
    omega
  simp [run, step, State.init, hc]

/-! ### Channels without an object -/

/-- A configuration for examples: one channel, one section; coefficient sets are numbers, 0 is flat. -/
def exCfg : Cfg Nat Nat Nat := ⟨2, 1, fun n => n, 0, 0⟩

/-- The equaliser of a channel without an object is not flat: the one of the scene before the last comes back. Here
channel 0 is used by the first scene only; the third scene brings its equaliser back. -/
theorem unused_channel_equaliser_returns :
    ¬ ∀ ops : List (Op Nat Nat), AllFit exCfg ops → ∀ ch, ch < exCfg.channels →
      owner (inForce none [] ops) ch = none →
      (final (step exCfg) (State.init exCfg) ops).published.eqs[ch]? = some [exCfg.flat] := by
  intro h
  have := h [.scene [⟨1, [0], [7]⟩], .process, .scene [], .process, .scene [], .process] (by
    intro op hop
    simp only [List.mem_cons, List.not_mem_nil, or_false] at hop
    rcases hop with rfl | rfl | rfl | rfl | rfl | rfl <;> simp [Fits, exCfg]) 0 (by decide) (by decide)
  exact absurd this (by decide)

/-! ### Examples -/

example : AllFit exCfg [.scene [⟨3, [1], [7]⟩, ⟨4, [0], []⟩], .process] := by
  intro op hop
  simp only [List.mem_cons, List.not_mem_nil, or_false] at hop
  rcases hop with rfl | rfl <;> simp [Fits, exCfg]

example : (final (step exCfg) (State.init exCfg) [.scene [⟨3, [1], [7]⟩, ⟨4, [0], []⟩], .process]).published
    = ⟨[4, 3], [[0], [7]]⟩ := rfl

example : ¬ Fits exCfg [⟨3, [2], [7]⟩] := by
  intro h; have := h ⟨3, [2], [7]⟩ (by simp) 2 (by simp); simp [exCfg] at this

end Visr.ObjectEq
