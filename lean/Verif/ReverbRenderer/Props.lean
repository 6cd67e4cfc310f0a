import Verif.ReverbRenderer.Lemmas

/-!
# C66: the reverberation renderer is completely wired and adds early and late reverberation
-/

namespace Visr.ReverbRenderer
open Visr Visr.Flow Visr.Wiring

/-- **C66.** The renderer can be constructed unless the file with decorrelation filters has fewer filters than there are
loudspeakers; then it throws. -/
theorem constructs_iff (c : Config) :
    ((∃ t, construct c = .ok t) ↔ ∀ n, c.fileFilters = some n → c.nL ≤ n) ∧
    ((∃ n, c.fileFilters = some n ∧ n < c.nL) → construct c = .throw .invalidArgument) := by
  unfold construct
  rw [build_ok]
  cases hf : c.fileFilters with
  | none => simp
  | some n =>
    by_cases h : n < c.nL
    · simp [h]
    · simp only [Option.any_some, h, decide_false, Bool.false_eq_true, if_false]
      refine ⟨⟨fun _ m hm => ?_, fun _ => ⟨_, rfl⟩⟩, ?_⟩
      · cases hm; omega
      · rintro ⟨m, hm, hlt⟩
        cases hm; omega

/-- **C66.** Whenever the renderer can be constructed, it passes the connection check of the runtime engine: every
receive channel inside has exactly one source, every send channel is used and all parameter ports are connected to
matching ones. -/
theorem renderer_accepted (c : Config) {t : Comp} (h : construct c = .ok t) :
    WellConnected CoreRenderer.compareConfig t ∧ checkConnectionIntegrity CoreRenderer.compareConfig t true = true := by
  unfold construct at h
  split at h
  · cases h
  · rw [build_ok] at h
    cases h
    exact ⟨wellConnected c, (connectionCheck_iff_partial _ _ (distinct c)).2 (wellConnected c)⟩

/-- **C66.** The renderer looks like a component with one input per object signal, one output per loudspeaker and an
object vector input. -/
theorem renderer_ports (c : Config) {t : Comp} (h : construct c = .ok t) :
    t.audio = [⟨30, true, c.nIn, 0⟩, ⟨31, false, c.nL, 0⟩] ∧ t.param = [⟨24, true, 0, 0, CoreRenderer.PConfig.empty.code⟩] := by
  unfold construct at h
  split at h
  · cases h
  · rw [build_ok] at h
    cases h
    exact ⟨rfl, rfl⟩

theorem flatMap_replicate_getElem? {S : Type} (m : Nat) : ∀ (l : List S) (i : Nat), i < l.length * m →
    (l.flatMap fun s => List.replicate m s)[i]? = l[i / m]? := by
  intro l
  induction l with
  | nil => intro i hi; simp at hi
  | cons a l ih =>
    intro i hi
    have hm : 0 < m := by
      rcases Nat.eq_zero_or_pos m with rfl | h
      · simp at hi
      · exact h
    rw [List.flatMap_cons]
    by_cases h : i < m
    · rw [List.getElem?_append_left (by simpa using h), Nat.div_eq_of_lt h]
      simp [h]
    · rw [List.getElem?_append_right (by simpa using h), List.length_replicate, ih (i - m) (by
        rw [List.length_cons, Nat.succ_mul] at hi; omega)]
      have : i / m = (i - m) / m + 1 := by
        rw [Nat.div_eq_sub_div hm (by omega)]
      rw [this, List.getElem?_cons_succ]

/-- **C66.** What the renderer plays: every loudspeaker signal is the sum of the early and the late reverberation of the
object signals. In the early part each reverb object's signal feeds its own `reflections` consecutive delay, filter and
panning channels. -/
theorem plays_early_and_late {S : Type} [Add S] (c : Config) {t : Comp} (h : construct c = .ok t) {e : Effects S}
    {own : List APort} {param : List PPort} {kids : List Comp} {conns : List AConn} {pconns : List PConn}
    (ht : t = .composite own param kids conns pconns) {v : String → String → List S} (hv : Running c conns e v) :
    v "" "out" = plus (early c e (v "" "in")) (late e (v "" "in")) := by
  have hconns : conns = (links c).flatMap Link.conns := by
    unfold construct at h
    split at h
    · cases h
    · rw [build_ok] at h
      cases h
      injection ht with _ _ _ h4 _
      exact h4.symm
  obtain ⟨a0, a1, a2, a3, a4, a5, a6, a7, a8, a9, a10, a11, a12, a13, a14, a15, a16, a17, a18⟩ := findAudio_sites c
  have cw := hv.toCarries
  have hroute : v "signalRouting" "out" = e.route (v "" "in") := by
    rw [hv.route, carry_whole cw hconns a0 a2 rfl (n := c.nIn) rfl (by simp [links])]
  have hfan : v "discreteReverbDelay" "in" = (e.route (v "" "in")).flatMap fun s => List.replicate c.reflections s := by
    rw [← hroute]
    have hl := cw.width _ _ _ a3
    have hl' := cw.width _ _ _ a4
    apply List.ext_getElem?
    intro i
    by_cases hi : i < c.total
    · rw [flatMap_replicate_getElem? _ _ _ (by rw [hl]; exact hi)]
      refine carry cw hconns a3 a4 (si := fanOut c) (ri := List.range c.total) (n := i) (by simp [links]) ?_ ?_
      · simp [fanOut, hi]
      · simp [hi]
    · rw [List.getElem?_eq_none (by rw [hl']; exact Nat.le_of_not_lt hi), List.getElem?_eq_none]
      have : (v "signalRouting" "out").length = c.objects := hl
      rw [List.length_flatMap]
      simp only [List.length_replicate, List.map_const', List.sum_replicate_nat, this]
      exact Nat.le_of_not_lt hi
  have hearly : v "Sum" "in0" = early c e (v "" "in") := by
    rw [carry_whole cw hconns a9 a16 rfl (n := c.nL) rfl (by simp [links]), hv.pan,
      carry_whole cw hconns a7 a8 rfl (n := c.total) rfl (by simp [links]), hv.filter,
      carry_whole cw hconns a5 a6 rfl (n := c.total) rfl (by simp [links]), hv.delay, hfan]
    rfl
  have hlate : v "Sum" "in1" = late e (v "" "in") := by
    rw [carry_whole cw hconns a15 a17 rfl (n := c.nL) rfl (by simp [links]), hv.decorrelate,
      carry_whole cw hconns a13 a14 rfl (n := 1) rfl (by simp [links]), hv.lateFilter,
      carry_whole cw hconns a11 a12 rfl (n := c.objects) rfl (by simp [links]), hv.lateDelay,
      carry_whole cw hconns a3 a10 rfl (n := c.objects) rfl (by simp [links]), hroute]
    rfl
  rw [carry_whole cw hconns a18 a1 rfl (n := c.nL) rfl (by simp [links]), hv.mix, hearly, hlate]

/-- **C66.** Every component is controlled by what the calculators make of the current scene. -/
theorem parameters_follow_scene (c : Config) {own : List APort} {param : List PPort} {kids : List Comp}
    {conns : List AConn} {pconns : List PConn} (h : construct c = .ok (.composite own param kids conns pconns)) {V : Type}
    {f : Calculators V} {p : String → String → V} (hp : Calculated c pconns f p) :
    p "signalRouting" "controlInput" = f.routing (p "" "objectIn") ∧
    p "discreteReverbDelay" "gainInput" = f.gains (p "" "objectIn") ∧
    p "discreteReverbDelay" "delayInput" = f.delays (p "" "objectIn") ∧
    p "discreteReverbReflectionFilters" "eqInput" = f.filters (p "" "objectIn") ∧
    p "discretePanningMatrix" "gainInput" = f.panning (p "" "objectIn") ∧
    p "lateReverbGainDelay" "gainInput" = f.lateGains (p "" "objectIn") ∧
    p "lateReverbGainDelay" "delayInput" = f.lateDelays (p "" "objectIn") ∧
    p "lateReverbFilter" "filterInput" = f.lateFilters (f.late (p "" "objectIn")) := by
  have hc : pconns = (plinks c).map fun l => ⟨l.1.id, l.2.id⟩ := by
    unfold construct at h
    split at h
    · cases h
    · rw [build_ok] at h
      injection h with h
      injection h with _ _ _ _ h5
      exact h5.symm
  obtain ⟨p0, p1, p2, p3, p4, p5, p6, p7, p8, p9, p10, p11, p12, p13, p14, p15, p16, p17, p18, p19⟩ := findParam_sites c
  have w : ∀ {sc sp rc rp : String} {s r : PPort}, (site c).findParam sc sp = some s → (site c).findParam rc rp = some r →
      (s, r) ∈ plinks c → p rc rp = p sc sp := fun h1 h2 h3 =>
    hp.wires _ _ _ _ _ _ h1 h2 (hc ▸ List.mem_map.2 ⟨_, h3, rfl⟩)
  have e := w p0 p1 (by simp [plinks])
  refine ⟨?_, ?_, ?_, ?_, ?_, ?_, ?_, ?_⟩
  · rw [w p2 p10 (by simp [plinks]), hp.routing, e]
  · rw [w p3 p11 (by simp [plinks]), hp.gains, e]
  · rw [w p4 p12 (by simp [plinks]), hp.delays, e]
  · rw [w p5 p13 (by simp [plinks]), hp.filters, e]
  · rw [w p6 p14 (by simp [plinks]), hp.panning, e]
  · rw [w p7 p17 (by simp [plinks]), hp.lateGains, e]
  · rw [w p8 p18 (by simp [plinks]), hp.lateDelays, e]
  · rw [w p16 p19 (by simp [plinks]), hp.lateFilters, w p9 p15 (by simp [plinks]), hp.late, e]

/-! ## Examples -/

/-- Four object signals, two reverb objects with three reflections each, five loudspeakers, eight filters in the file. -/
def demo : Config := ⟨4, 5, 2, 3, some 8⟩

example : ∃ t, construct demo = .ok t :=
  (constructs_iff demo).1.2 fun n h => by cases h; decide

/-- Too few filters in the file. -/
example : construct { demo with fileFilters := some 4 } = .throw .invalidArgument :=
  (constructs_iff _).2 ⟨4, rfl, by decide⟩

/-- Fan-out of two objects to three reflections each. -/
example : fanOut demo = [0, 0, 0, 1, 1, 1] := by decide

/-- Signals are integers here; the components route the last two of the inputs, double, negate and so on. A running
renderer: the values at all ports. -/
def demoEffects : Effects Int where
  route x := x.drop 2
  delay x := x.map (· + 1)
  filter x := x.map (2 * ·)
  pan x := [x.sum, 0, 0, 0, x.headD 0]
  lateDelay x := x.map (· - 1)
  lateFilter x := [x.sum]
  decorrelate x := List.replicate 5 x.sum

/-- The signals of the example. -/
def demoSignals (c p : String) : List Int :=
  if c = "" ∨ c = "this" then (if p = "in" then [5, 6, 7, 8] else [115, 13, 13, 13, 29])
  else if c = "signalRouting" then (if p = "in" then [5, 6, 7, 8] else [7, 8])
  else if c = "discreteReverbDelay" then (if p = "in" then [7, 7, 7, 8, 8, 8] else [8, 8, 8, 9, 9, 9])
  else if c = "discreteReverbReflectionFilters" then (if p = "in" then [8, 8, 8, 9, 9, 9] else [16, 16, 16, 18, 18, 18])
  else if c = "discretePanningMatrix" then (if p = "in" then [16, 16, 16, 18, 18, 18] else [102, 0, 0, 0, 16])
  else if c = "lateReverbGainDelay" then (if p = "in" then [7, 8] else [6, 7])
  else if c = "lateReverbFilter" then (if p = "in" then [6, 7] else [13])
  else if c = "decorrelationFilter" then (if p = "in" then [13] else [13, 13, 13, 13, 13])
  else if p = "in0" then [102, 0, 0, 0, 16] else if p = "in1" then [13, 13, 13, 13, 13] else [115, 13, 13, 13, 29]

/-- The signals of the example by port address. -/
def demoById (i : Nat) : List Int :=
  if i = 30 then [5, 6, 7, 8] else if i = 31 then [115, 13, 13, 13, 29] else
  ([[], [], [5, 6, 7, 8], [7, 8], [7, 7, 7, 8, 8, 8], [8, 8, 8, 9, 9, 9], [8, 8, 8, 9, 9, 9],
    [16, 16, 16, 18, 18, 18], [16, 16, 16, 18, 18, 18], [102, 0, 0, 0, 16], [7, 8], [6, 7], [6, 7], [13], [13],
    [13, 13, 13, 13, 13], [102, 0, 0, 0, 16], [13, 13, 13, 13, 13], [115, 13, 13, 13, 29]] : List (List Int)).getD i []

theorem demo_running : Running demo ((links demo).flatMap Link.conns) demoEffects demoSignals := by
  have hid : ∀ a b port, (site demo).findAudio a b = some port →
      demoSignals a b = demoById port.id ∧ (demoById port.id).length = port.width := by
    intro a b port h
    have all : ∀ x ∈ (site demo).table,
        demoSignals x.1 x.2.1 = demoById x.2.2.id ∧ (demoById x.2.2.id).length = x.2.2.width := by decide +kernel
    exact all _ (mem_table h)
  refine ⟨⟨?_, ?_⟩, by decide +kernel, by decide +kernel, by decide +kernel, by decide +kernel, by decide +kernel,
    by decide +kernel, by decide +kernel, by decide +kernel⟩
  · intro a b port h
    rw [(hid a b port h).1, (hid a b port h).2]
  · intro sc sp s i rc rp r j hs hr hm
    rw [(hid _ _ _ hs).1, (hid _ _ _ hr).1]
    have : ∀ x ∈ pairs ((links demo).flatMap Link.conns), (demoById x.1.1)[x.1.2]? = (demoById x.2.1)[x.2.2]? := by
      decide +kernel
    exact this _ hm

example : ∃ t, construct demo = .ok t ∧
    plus (early demo demoEffects (demoSignals "" "in")) (late demoEffects (demoSignals "" "in")) = [115, 13, 13, 13, 29] := by
  obtain ⟨t, ht⟩ := (constructs_iff demo).1.2 fun n h => by cases h; decide
  refine ⟨t, ht, ?_⟩
  have e : t = tree demo := by
    unfold construct at ht
    rw [if_neg (by decide), build_ok] at ht
    cases ht
    rfl
  rw [← plays_early_and_late demo ht e demo_running]
  decide +kernel

/-- Parameter values of the demo, by port. -/
def demoValue : Nat → Nat
  | 24 | 1 => 1
  | 2 | 10 => 2
  | 3 | 11 => 3
  | 4 | 12 => 4
  | 5 | 13 => 5
  | 6 | 14 => 6
  | 7 | 17 => 7
  | 8 | 18 => 8
  | 9 | 15 => 9
  | 16 | 19 => 90
  | _ => 0

def demoParameters (a b : String) : Nat := ((site demo).findParam a b).elim 0 fun q => demoValue q.id

example : Calculated demo ((plinks demo).map fun l => ⟨l.1.id, l.2.id⟩)
    ⟨(2 * ·), (3 * ·), (4 * ·), (5 * ·), (6 * ·), (7 * ·), (8 * ·), (9 * ·), (10 * ·)⟩ demoParameters := by
  obtain ⟨p0, p1, p2, p3, p4, p5, p6, p7, p8, p9, p10, p11, p12, p13, p14, p15, p16, p17, p18, p19⟩ := findParam_sites demo
  refine ⟨fun sc sp s rc rp r hs hr hm => ?_, ?_, ?_, ?_, ?_, ?_, ?_, ?_, ?_, ?_⟩
  · have key : ∀ k ∈ (plinks demo).map fun l => (⟨l.1.id, l.2.id⟩ : PConn), demoValue k.receiver = demoValue k.sender := by
      decide +kernel
    simp only [demoParameters, hs, hr, Option.elim_some]
    exact key _ hm
  all_goals simp only [demoParameters, p1, p2, p3, p4, p5, p6, p7, p8, p9, p15, p16, Option.elim_some]; rfl

end Visr.ReverbRenderer
