import Verif.SignalFlows.Baseline

/-!
# C67: the ready-made signal flows are complete
-/

namespace Visr.SignalFlows
open Visr Visr.Flow Visr.Wiring
open Visr.CoreRenderer (PConfig compareConfig)
open Visr.ReverbRenderer (aport pport)

/-! ## The complete renderer -/

/-- **C67.** For every usable array and all options except tracking, with or without reverberation, the complete renderer
(network receiver, scene decoder, core renderer) can be constructed and passes the connection check. -/
theorem baseline_accepted_partial {c : CoreRenderer.Config} (hv : CoreRenderer.Valid c) (ht : c.tracking = false)
    (hd : 0 < c.delays) {reverb : Reverb} (hr : ∀ r, reverb = some r → ∀ n, r.2.2 = some n → c.lsp.length ≤ n) :
    ∃ t, baseline c reverb = .ok t ∧ WellConnected compareConfig t ∧
      checkConnectionIntegrity compareConfig t true = true := by
  obtain ⟨t, h, hw⟩ := core_ok hv ht hd hr
  refine ⟨_, by unfold baseline; rw [h, Outcome.ok_bind, baseline_build], baseline_wellConnected h hw ht,
    (connectionCheck_iff_partial _ _ (baseline_distinct h _ _)).2 (baseline_wellConnected h hw ht)⟩

/-- **C67.** The complete renderer plays what the core renderer makes of its input. -/
theorem baseline_plays {c : CoreRenderer.Config} {reverb : Reverb} {own : List APort} {param : List PPort}
    {kids : List Comp} {conns : List AConn} {pconns : List PConn}
    (h : baseline c reverb = .ok (.composite own param kids conns pconns)) {t : Comp} {S : Type}
    {v : String → String → List S} (hv : Carries (baselineSite c t) conns v) {e : List S → List S}
    (he : v "CoreRenderer" "audioOut" = e (v "CoreRenderer" "audioIn")) : v "" "output" = e (v "" "input") := by
  have hc : conns = (baselineLinks c).flatMap Link.conns := by
    unfold baseline at h
    cases hco : core c reverb with
    | throw e => rw [hco] at h; cases h
    | ub => rw [hco] at h; cases h
    | ok t' =>
      rw [hco, Outcome.ok_bind, baseline_build] at h
      injection h with h
      injection h with _ _ _ h4 _
      exact h4.symm
  obtain ⟨a0, a1, a2, a3⟩ := baseline_audio c t
  rw [carry_whole hv hc a3 a1 rfl (n := c.nOut) rfl (by simp [baselineLinks]), he,
    carry_whole hv hc a0 a2 rfl (n := c.nIn) rfl (by simp [baselineLinks])]

/-- **C67.** The scene that the core renderer plays is decoded from the messages received. -/
theorem baseline_scene {c : CoreRenderer.Config} {reverb : Reverb} {own : List APort} {param : List PPort}
    {kids : List Comp} {conns : List AConn} {pconns : List PConn}
    (h : baseline c reverb = .ok (.composite own param kids conns pconns)) {t : Comp} {V : Type} {p : String → String → V}
    (hp : Controlled (baselineSite c t) pconns p) {decode : V → V}
    (hd : p "SceneDecoder" "objectVectorOutput" = decode (p "SceneDecoder" "datagramInput")) :
    p "CoreRenderer" "objectDataInput" = decode (p "SceneReceiver" "messageOutput") := by
  have hc : pconns = (baselinePLinks c).map fun l => ⟨l.1.id, l.2.id⟩ := by
    unfold baseline at h
    cases hco : core c reverb with
    | throw e => rw [hco] at h; cases h
    | ub => rw [hco] at h; cases h
    | ok t' =>
      rw [hco, Outcome.ok_bind, baseline_build] at h
      injection h with h
      injection h with _ _ _ _ h5
      exact h5.symm
  obtain ⟨p0, p1, p2, p3⟩ := baseline_param c t
  rw [hp _ _ _ _ _ _ p2 p3 (by rw [hc]; simp [baselinePLinks]), hd,
    hp _ _ _ _ _ _ p0 p1 (by rw [hc]; simp [baselinePLinks])]

/-- **C67 (negation, tracking).** With tracking the complete renderer never passes the connection check, whatever the
array: the receiver of the tracking messages is not connected to their decoder. -/
theorem baseline_tracking_rejected {c : CoreRenderer.Config} (ht : c.tracking = true) {reverb : Reverb} {t : Comp}
    (h : baseline c reverb = .ok t) : checkConnectionIntegrity compareConfig t true = false := by
  unfold baseline at h
  cases hco : core c reverb with
  | throw e => rw [hco] at h; cases h
  | ub => rw [hco] at h; cases h
  | ok t' =>
    rw [hco, Outcome.ok_bind, baseline_build] at h
    injection h with h
    subst h
    rw [Bool.eq_false_iff]
    intro hcon
    have hw := (connectionCheck_iff_partial _ _ (baseline_distinct hco _ _)).1 hcon _ _ _ _ _ (.self _)
    have hr := hw.2.receive (pport 104 true 2 8 .empty) (by
      rw [baseline_parts hco]
      simp [CanReceive, ht, atom_param, pport])
    simp [baselinePLinks, ht, pport, cObj, cTrack, CoreRenderer.PName.id] at hr

/-! ## The bunch renderer -/

/-- **C67 (negation, bunch renderer).** For usable arrays the bunch renderer passes the connection check exactly if the
array has as many outputs as there are object signals: its output is connected by the number of inputs. -/
theorem bunch_accepted_iff {c : CoreRenderer.Config} (hv : CoreRenderer.Valid c) (ht : c.tracking = false)
    (hd : 0 < c.delays) {reverb : Reverb} (hr : ∀ r, reverb = some r → ∀ n, r.2.2 = some n → c.lsp.length ≤ n) :
    ∃ t, bunch c reverb = .ok t ∧ (checkConnectionIntegrity compareConfig t true = true ↔ c.nIn = c.nOut) := by
  have hv' : CoreRenderer.Valid { c with sections := 0, freqDep := false } := ⟨hv.filters, hv.eq, hv.distinct, hv.range⟩
  obtain ⟨t, h, hw⟩ := core_ok hv' ht hd hr
  obtain ⟨cp, hb, rfl⟩ := bunch_build { c with sections := 0, freqDep := false } t
  refine ⟨_, (by unfold bunch; simp only; rw [h, Outcome.ok_bind]; exact hb), ?_⟩
  rw [connectionCheck_iff_partial _ _ (bunch_distinct h _ _)]
  constructor
  · intro hwc
    obtain ⟨s, r, _, _, _, _, hlen, _⟩ := (hwc _ _ _ _ _ (.self _)).1.known _ (List.mem_cons_of_mem _ (List.mem_singleton.2 rfl))
    simpa using hlen.symm
  · intro hn
    exact bunch_wellConnected h hw ht hn

/-! ## The delay line flow -/

theorem delay_audio (n : Nat) :
    (delaySite n).findAudio "" "input" = some (aport 0 true n) ∧
    (delaySite n).findAudio "" "output" = some (aport 1 false n) ∧
    (delaySite n).findAudio "DelayVector" "in" = some (aport 2 true n) ∧
    (delaySite n).findAudio "DelayVector" "out" = some (aport 3 false n) := by
  refine ⟨?_, ?_, ?_, ?_⟩ <;> simp [Site.findAudio, Site.findComponent, delaySite]

def delayLinks (n : Nat) : List Link :=
  [⟨aport 0 true n, List.range n, aport 2 true n, List.range n⟩, ⟨aport 3 false n, List.range n, aport 1 false n, List.range n⟩]

def delayPLinks (n : Nat) : List (PPort × PPort) :=
  [(pport 0 true 0 2 (.vector n), pport 2 true 0 2 (.vector n)), (pport 1 true 0 2 (.vector n), pport 3 true 0 2 (.vector n))]

theorem delay_param (n : Nat) :
    (delaySite n).findParam "" "globalGainInput" = some (pport 0 true 0 2 (.vector n)) ∧
    (delaySite n).findParam "" "globalDelayInput" = some (pport 1 true 0 2 (.vector n)) ∧
    (delaySite n).findParam "DelayVector" "gainInput" = some (pport 2 true 0 2 (.vector n)) ∧
    (delaySite n).findParam "DelayVector" "delayInput" = some (pport 3 true 0 2 (.vector n)) := by
  refine ⟨?_, ?_, ?_, ?_⟩ <;> simp [Site.findParam, Site.findComponent, delaySite]

theorem delay_build (n : Nat) : delayFlow n = .ok (.composite [aport 0 true n, aport 1 false n]
    [pport 0 true 0 2 (.vector n), pport 1 true 0 2 (.vector n)]
    [.atom [aport 2 true n, aport 3 false n] [pport 2 true 0 2 (.vector n), pport 3 true 0 2 (.vector n)]]
    ((delayLinks n).flatMap Link.conns) ((delayPLinks n).map fun l => ⟨l.1.id, l.2.id⟩)) := by
  obtain ⟨a0, a1, a2, a3⟩ := delay_audio n
  obtain ⟨p0, p1, p2, p3⟩ := delay_param n
  unfold delayFlow Site.build
  rw [if_pos (by simp [Site.registered, delaySite])]
  unfold delayCalls
  rw [execAll_cons (exec_audio a0 a2 rfl _), execAll_cons (exec_audio a3 a1 rfl _), execAll_cons (exec_param p0 p2 _),
    execAll_cons (exec_param p1 p3 _)]
  simp [execAll, delayLinks, delayPLinks, delaySite, Part.comp, aport]

/-- **C67.** The delay line flow passes the connection check for all numbers of channels. -/
theorem delay_accepted (n : Nat) : ∃ t, delayFlow n = .ok t ∧ WellConnected compareConfig t ∧
    checkConnectionIntegrity compareConfig t true = true := by
  refine ⟨_, delay_build n, ?_⟩
  have hw : WellConnected compareConfig (.composite [aport 0 true n, aport 1 false n]
      [pport 0 true 0 2 (.vector n), pport 1 true 0 2 (.vector n)]
      [.atom [aport 2 true n, aport 3 false n] [pport 2 true 0 2 (.vector n), pport 3 true 0 2 (.vector n)]]
      ((delayLinks n).flatMap Link.conns) ((delayPLinks n).map fun l => ⟨l.1.id, l.2.id⟩)) := by
    refine wellConnected_composite ?_ ?_ fun k hk => ?_
    · refine audioOK_of_links ?_ ?_ ?_ ?_ ?_
      · intro l hl
        simp only [delayLinks, List.mem_cons, List.not_mem_nil, or_false] at hl
        rcases hl with rfl | rfl <;> simp [CanSend, aport, atom_audio]
      · intro l hl
        simp only [delayLinks, List.mem_cons, List.not_mem_nil, or_false] at hl
        rcases hl with rfl | rfl <;> simp [CanReceive, aport, atom_audio]
      · intro l hl
        simp only [delayLinks, List.mem_cons, List.not_mem_nil, or_false] at hl
        rcases hl with rfl | rfl <;> exact whole_fits rfl
      · intro r hr i hi
        rw [← mem_receivePorts] at hr
        simp [receivePorts, aport, atom_audio] at hr
        rcases hr with rfl | rfl <;>
        · simp only at hi
          simp [delayLinks, aport, hi]
      · intro s hs i hi
        rw [← mem_sendPorts] at hs
        simp [sendPorts, aport, atom_audio] at hs
        rcases hs with rfl | rfl <;>
        · simp only at hi
          simp [delayLinks, aport, hi]
    · unfold delayPLinks
      refine paramOK_of_links ?_ ?_ ?_ ?_ ?_
      · intro l hl
        simp only [List.mem_cons, List.not_mem_nil, or_false] at hl
        rcases hl with rfl | rfl <;> simp [CanSend, pport]
      · intro l hl
        simp only [List.mem_cons, List.not_mem_nil, or_false] at hl
        rcases hl with rfl | rfl <;> simp [CanReceive, pport, atom_param]
      · intro l hl
        simp only [List.mem_cons, List.not_mem_nil, or_false] at hl
        rcases hl with rfl | rfl <;> exact matches_same _ _ _ _ _ _ _
      · intro r hr
        rw [← mem_receivePorts] at hr
        simp [receivePorts, pport, atom_param] at hr
        rcases hr with rfl | rfl <;> simp [pport]
      · intro s hs
        rw [← mem_sendPorts] at hs
        simp [sendPorts, pport, atom_param] at hs
        rcases hs with rfl | rfl <;> simp [pport]
    · rw [List.mem_singleton] at hk
      subst hk
      exact wellConnected_atom
  refine ⟨hw, (connectionCheck_iff_partial _ _ ?_).2 hw⟩
  refine distinct_composite ?_ ?_ fun k hk => ?_
  · simp [DistinctPorts, atom_audio, aport]
  · simp [DistinctPorts, atom_param, pport]
  · rw [List.mem_singleton] at hk
    subst hk
    exact distinct_atom

/-- **C67.** The delay line flow plays what the delay line makes of its input. -/
theorem delay_plays {n : Nat} {own : List APort} {param : List PPort} {kids : List Comp} {conns : List AConn}
    {pconns : List PConn} (h : delayFlow n = .ok (.composite own param kids conns pconns)) {S : Type}
    {v : String → String → List S} (hv : Carries (delaySite n) conns v) {e : List S → List S}
    (he : v "DelayVector" "out" = e (v "DelayVector" "in")) : v "" "output" = e (v "" "input") := by
  rw [delay_build] at h
  injection h with h
  injection h with _ _ _ h4 _
  obtain ⟨a0, a1, a2, a3⟩ := delay_audio n
  rw [carry_whole hv h4.symm a3 a1 rfl (n := n) rfl (by simp [delayLinks]), he,
    carry_whole hv h4.symm a0 a2 rfl (n := n) rfl (by simp [delayLinks])]

/-- **C67.** The gains and delays of the delay line are those given to the flow. -/
theorem delay_parameters {n : Nat} {own : List APort} {param : List PPort} {kids : List Comp} {conns : List AConn}
    {pconns : List PConn} (h : delayFlow n = .ok (.composite own param kids conns pconns)) {V : Type}
    {p : String → String → V} (hp : Controlled (delaySite n) pconns p) :
    p "DelayVector" "gainInput" = p "" "globalGainInput" ∧ p "DelayVector" "delayInput" = p "" "globalDelayInput" := by
  rw [delay_build] at h
  injection h with h
  injection h with _ _ _ _ h5
  obtain ⟨p0, p1, p2, p3⟩ := delay_param n
  exact ⟨hp _ _ _ _ _ _ p0 p2 (by rw [← h5]; simp [delayPLinks]), hp _ _ _ _ _ _ p1 p3 (by rw [← h5]; simp [delayPLinks])⟩

/-- **C67 (negation, names).** A composite cannot contain two delay line flows: whatever names they are given, the second
one throws because both are registered with the same name. -/
theorem two_delays_throw {site : Site} {a b : String} {n m i1 i2 i3 i4 j1 j2 j3 j4 : Nat}
    (h : [delayFlowPart a n i1 i2 i3 i4, delayFlowPart b m j1 j2 j3 j4].Sublist site.parts) (calls : List Stmt) :
    site.build calls = .throw .invalidArgument := by
  unfold Site.build
  rw [if_neg]
  intro hr
  unfold Site.registered at hr
  simp only [Bool.and_eq_true, decide_eq_true_eq] at hr
  have := (h.map Part.name).nodup hr.1.1.1
  simp [delayFlowPart] at this

/-! ## The gain matrix flow -/

/-- **C67 (negation, gain matrix).** The gain matrix flow cannot be constructed: it connects ports that its gain matrix
does not have. -/
theorem gain_throws (nIn nOut : Nat) : gainFlow nIn nOut = .throw .invalidArgument := by
  unfold gainFlow Site.build
  rw [if_pos (by simp [Site.registered, gainSite])]
  have h : (gainSite nIn nOut).findAudio "GainMatrix" "input" = none := by
    simp [Site.findAudio, Site.findComponent, gainSite]
  have h' : exec (gainSite nIn nOut) (.audioNamed "" "input" (List.range nIn) "GainMatrix" "input" (List.range nIn))
      ⟨[], []⟩ = .throw .invalidArgument := by
    simp [exec, h]
  unfold gainCalls execAll
  rw [h']
  rfl

/-! ## The time-frequency flow -/

def feedLinks (n : Nat) : List Link :=
  [⟨aport 0 true n, List.range n, aport 2 true n, List.range n⟩, ⟨aport 3 false n, List.range n, aport 1 false n, List.range n⟩]

theorem feed_audio (n dftSize hopSize period : Nat) :
    (feedthroughSite n dftSize hopSize period).findAudio "this" "input" = some (aport 0 true n) ∧
    (feedthroughSite n dftSize hopSize period).findAudio "this" "output" = some (aport 1 false n) ∧
    (feedthroughSite n dftSize hopSize period).findAudio "ForwardTransform" "in" = some (aport 2 true n) ∧
    (feedthroughSite n dftSize hopSize period).findAudio "InverseTransform" "out" = some (aport 3 false n) := by
  refine ⟨?_, ?_, ?_, ?_⟩ <;> simp [Site.findAudio, Site.findComponent, feedthroughSite]

theorem feed_build (n dftSize hopSize period : Nat) :
    (feedthroughSite n dftSize hopSize period).build (feedthroughCalls n) =
      .ok (.composite [aport 0 true n, aport 1 false n] []
        [.atom [aport 2 true n] [⟨0, false, 1, 9, timeFrequencyCode ((dftSize + 2) / 2) n (period / hopSize)⟩],
         .atom [aport 3 false n] [⟨1, true, 1, 9, timeFrequencyCode ((dftSize + 2) / 2) n (period / hopSize)⟩]]
        ((feedLinks n).map named) [⟨0, 1⟩]) := by
  obtain ⟨a0, a1, a2, a3⟩ := feed_audio n dftSize hopSize period
  have p0 : (feedthroughSite n dftSize hopSize period).findParam "ForwardTransform" "out" =
      some ⟨0, false, 1, 9, timeFrequencyCode ((dftSize + 2) / 2) n (period / hopSize)⟩ := by
    simp [Site.findParam, Site.findComponent, feedthroughSite]
  have p1 : (feedthroughSite n dftSize hopSize period).findParam "InverseTransform" "in" =
      some ⟨1, true, 1, 9, timeFrequencyCode ((dftSize + 2) / 2) n (period / hopSize)⟩ := by
    simp [Site.findParam, Site.findComponent, feedthroughSite]
  unfold Site.build
  rw [if_pos (by simp [Site.registered, feedthroughSite])]
  unfold feedthroughCalls
  rw [execAll_cons (exec_named a0 a2 _), execAll_cons (exec_named a3 a1 _), execAll_cons (exec_param p0 p1 _)]
  simp [execAll, feedLinks, feedthroughSite, Part.comp, named, aport]

/-- **C67.** The time-frequency flow passes the connection check for all numbers of channels and transform sizes, if the
hop size divides the period. -/
theorem feedthrough_accepted {n dftSize hopSize period : Nat} (hh : 0 < hopSize) (hp : hopSize ∣ period) :
    ∃ t, feedthrough n dftSize hopSize period = .ok t ∧ WellConnected compareConfig t ∧
      checkConnectionIntegrity compareConfig t true = true := by
  refine ⟨_, by
    unfold feedthrough
    rw [if_neg (by omega), if_neg (by simpa using Nat.mod_eq_zero_of_dvd hp), feed_build], ?_⟩
  have hw : WellConnected compareConfig (.composite [aport 0 true n, aport 1 false n] []
        [.atom [aport 2 true n] [⟨0, false, 1, 9, timeFrequencyCode ((dftSize + 2) / 2) n (period / hopSize)⟩],
         .atom [aport 3 false n] [⟨1, true, 1, 9, timeFrequencyCode ((dftSize + 2) / 2) n (period / hopSize)⟩]]
        ((feedLinks n).map named) [⟨0, 1⟩]) := by
    refine wellConnected_composite ?_ ?_ fun k hk => ?_
    · refine audioOK_of_named ?_ ?_ ?_ ?_ ?_
      · intro l hl
        simp only [feedLinks, List.mem_cons, List.not_mem_nil, or_false] at hl
        rcases hl with rfl | rfl <;> simp [CanSend, aport, atom_audio]
      · intro l hl
        simp only [feedLinks, List.mem_cons, List.not_mem_nil, or_false] at hl
        rcases hl with rfl | rfl <;> simp [CanReceive, aport, atom_audio]
      · intro l hl
        simp only [feedLinks, List.mem_cons, List.not_mem_nil, or_false] at hl
        rcases hl with rfl | rfl <;> exact whole_fits rfl
      · intro r hr i hi
        rw [← mem_receivePorts] at hr
        simp [receivePorts, aport, atom_audio] at hr
        rcases hr with rfl | rfl <;>
        · simp only at hi
          simp [feedLinks, aport, hi]
      · intro s hs i hi
        rw [← mem_sendPorts] at hs
        simp [sendPorts, aport, atom_audio] at hs
        rcases hs with rfl | rfl <;>
        · simp only at hi
          simp [feedLinks, aport, hi]
    · refine paramOK_of_links (ls := [(⟨0, false, 1, 9, timeFrequencyCode ((dftSize + 2) / 2) n (period / hopSize)⟩,
        ⟨1, true, 1, 9, timeFrequencyCode ((dftSize + 2) / 2) n (period / hopSize)⟩)]) ?_ ?_ ?_ ?_ ?_
      · intro l hl
        rw [List.mem_singleton] at hl
        subst hl
        simp [CanSend, atom_param]
      · intro l hl
        rw [List.mem_singleton] at hl
        subst hl
        simp [CanReceive, atom_param]
      · intro l hl
        rw [List.mem_singleton] at hl
        subst hl
        exact matches_same _ _ _ _ _ _ _
      · intro r hr
        rw [← mem_receivePorts] at hr
        simp [receivePorts, atom_param] at hr
        subst hr
        simp
      · intro s hs
        rw [← mem_sendPorts] at hs
        simp [sendPorts, atom_param] at hs
        subst hs
        simp
    · simp only [List.mem_cons, List.not_mem_nil, or_false] at hk
      rcases hk with rfl | rfl <;> exact wellConnected_atom
  refine ⟨hw, (connectionCheck_iff_partial _ _ ?_).2 hw⟩
  refine distinct_composite ?_ ?_ fun k hk => ?_
  · simp [DistinctPorts, atom_audio, aport]
  · simp [DistinctPorts, atom_param]
  · simp only [List.mem_cons, List.not_mem_nil, or_false] at hk
    rcases hk with rfl | rfl <;> exact distinct_atom

/-- **C67.** The time-frequency flow plays the inverse transform of the transform of its input. -/
theorem feedthrough_plays {n dftSize hopSize period : Nat} {own : List APort} {param : List PPort} {kids : List Comp}
    {conns : List AConn} {pconns : List PConn}
    (h : feedthrough n dftSize hopSize period = .ok (.composite own param kids conns pconns)) {S V : Type}
    {v : String → String → List S} (hv : Carries (feedthroughSite n dftSize hopSize period) conns v)
    {p : String → String → V} (hp : Controlled (feedthroughSite n dftSize hopSize period) pconns p)
    {forward : List S → V} {inverse : V → List S}
    (hf : p "ForwardTransform" "out" = forward (v "ForwardTransform" "in"))
    (hi : v "InverseTransform" "out" = inverse (p "InverseTransform" "in")) :
    v "this" "output" = inverse (forward (v "this" "input")) := by
  unfold feedthrough at h
  split at h
  · cases h
  split at h
  · cases h
  rw [feed_build] at h
  injection h with h
  injection h with _ _ _ h4 h5
  obtain ⟨a0, a1, a2, a3⟩ := feed_audio n dftSize hopSize period
  have p0 : (feedthroughSite n dftSize hopSize period).findParam "ForwardTransform" "out" =
      some ⟨0, false, 1, 9, timeFrequencyCode ((dftSize + 2) / 2) n (period / hopSize)⟩ := by
    simp [Site.findParam, Site.findComponent, feedthroughSite]
  have p1 : (feedthroughSite n dftSize hopSize period).findParam "InverseTransform" "in" =
      some ⟨1, true, 1, 9, timeFrequencyCode ((dftSize + 2) / 2) n (period / hopSize)⟩ := by
    simp [Site.findParam, Site.findComponent, feedthroughSite]
  have hpr : pairs conns = pairs ((feedLinks n).flatMap Link.conns) := by
    rw [← h4, pairs_named, pairs_flatMap]
  have hv' : Carries (feedthroughSite n dftSize hopSize period) ((feedLinks n).flatMap Link.conns) v :=
    ⟨hv.width, fun _ _ _ _ _ _ _ _ h1 h2 h3 => hv.wires _ _ _ _ _ _ _ _ h1 h2 (hpr ▸ h3)⟩
  rw [carry_whole hv' rfl a3 a1 rfl (n := n) rfl (by simp [feedLinks]), hi,
    hp _ _ _ _ _ _ p0 p1 (by rw [← h5]; simp), hf,
    carry_whole hv' rfl a0 a2 rfl (n := n) rfl (by simp [feedLinks])]

/-- **C67 (negation, hop size).** A hop size of zero is undefined behaviour instead of an exception. -/
theorem feedthrough_hop_zero (n dftSize period : Nat) : feedthrough n dftSize 0 period = .ub := rfl

/-! ## Examples -/

/-- `nIn` objects; loudspeakers on channels 3 and 1, a subwoofer on channel 4 and five outputs. -/
def demo (tracking : Bool) (nIn : Nat) (eq : Option Nat) : CoreRenderer.Config :=
  ⟨nIn, 5, [3, 1], [4], 2, eq, 3, 1, tracking, false, true⟩

theorem demo_valid (tracking : Bool) (nIn : Nat) : CoreRenderer.Valid (demo tracking nIn (some 3)) :=
  ⟨by simp [demo], by simp [demo], by simp only [demo]; decide, by simp [demo]⟩

theorem demo_valid' (tracking : Bool) (nIn : Nat) : CoreRenderer.Valid (demo tracking nIn none) :=
  ⟨by simp [demo], by simp [demo], by simp only [demo]; decide, by simp [demo]⟩

example : ∃ t, baseline (demo false 4 (some 3)) none = .ok t ∧ checkConnectionIntegrity compareConfig t true = true := by
  obtain ⟨t, h1, _, h3⟩ := baseline_accepted_partial (demo_valid false 4) rfl (by decide) (reverb := none) (by simp)
  exact ⟨t, h1, h3⟩

example : ∃ t, baseline (demo false 4 (some 3)) (some (2, 3, some 8)) = .ok t ∧
    checkConnectionIntegrity compareConfig t true = true := by
  obtain ⟨t, h1, _, h3⟩ := baseline_accepted_partial (demo_valid false 4) rfl (by decide) (reverb := some (2, 3, some 8)) (by
    intro r hr n hn
    cases hr
    cases hn
    decide)
  exact ⟨t, h1, h3⟩

/-- With tracking and without equalisation the renderer can be constructed, but not used. -/
example : ∃ t, baseline (demo true 4 none) none = .ok t ∧ checkConnectionIntegrity compareConfig t true = false := by
  have h : ∃ t, core (demo true 4 none) none = .ok t := by
    have hc := CoreRenderer.audioConnections_ok' (demo_valid' true 4) (CoreRenderer.calls2_fits_tracking _ rfl) (by decide)
    simp only [core]
    unfold CoreRenderer.construct
    have e : { demo true 4 none with reverb := false } = demo true 4 none := rfl
    rw [e, hc, Outcome.ok_bind]
    exact ⟨_, rfl⟩
  obtain ⟨t, h⟩ := h
  have hb : ∃ t', baseline (demo true 4 none) none = .ok t' := by
    unfold baseline
    rw [h, Outcome.ok_bind, baseline_build]
    exact ⟨_, rfl⟩
  obtain ⟨t', hb⟩ := hb
  exact ⟨t', hb, baseline_tracking_rejected rfl hb⟩

example : ∃ t, bunch (demo false 5 (some 3)) none = .ok t ∧ checkConnectionIntegrity compareConfig t true = true := by
  obtain ⟨t, h1, h2⟩ := bunch_accepted_iff (demo_valid false 5) rfl (by decide) (reverb := none) (by simp)
  exact ⟨t, h1, h2.2 rfl⟩

example : ∃ t, bunch (demo false 4 (some 3)) none = .ok t ∧ checkConnectionIntegrity compareConfig t true = false := by
  obtain ⟨t, h1, h2⟩ := bunch_accepted_iff (demo_valid false 4) rfl (by decide) (reverb := none) (by simp)
  exact ⟨t, h1, Bool.eq_false_iff.2 fun h => absurd (h2.1 h) (by decide)⟩

example : (⟨[], [], [delayFlowPart "left" 2 0 1 0 1, delayFlowPart "right" 2 2 3 2 3]⟩ : Site).build [] =
    .throw .invalidArgument := two_delays_throw (List.Sublist.refl _) _

/-- Signals of a running delay flow: the delay line doubles. -/
example : Carries (delaySite 2) ((delayLinks 2).flatMap Link.conns)
    (fun _ b => if b = "output" ∨ b = "out" then [2, 4] else [1, 2] : String → String → List Nat) := by
  refine ⟨fun a b port h => ?_, fun sc sp s i rc rp r j hs hr hp => ?_⟩
  · have := mem_table h
    simp [Site.table, delaySite, aport] at this
    rcases this with ⟨_, rfl, rfl⟩ | ⟨_, rfl, rfl⟩ | ⟨_, rfl, rfl⟩ | ⟨_, rfl, rfl⟩ | ⟨_, rfl, rfl⟩ | ⟨_, rfl, rfl⟩ <;> rfl
  · have h1 := mem_table hs
    have h2 := mem_table hr
    rw [pairs_flatMap] at hp
    simp [delayLinks, Link.pairs, aport, List.range_succ] at hp
    simp [Site.table, delaySite, aport] at h1 h2
    rcases h1 with ⟨_, rfl, rfl⟩ | ⟨_, rfl, rfl⟩ | ⟨_, rfl, rfl⟩ | ⟨_, rfl, rfl⟩ | ⟨_, rfl, rfl⟩ | ⟨_, rfl, rfl⟩ <;>
    rcases h2 with ⟨_, rfl, rfl⟩ | ⟨_, rfl, rfl⟩ | ⟨_, rfl, rfl⟩ | ⟨_, rfl, rfl⟩ | ⟨_, rfl, rfl⟩ | ⟨_, rfl, rfl⟩ <;>
    · simp at hp
      try (rcases hp with ⟨rfl, rfl⟩ | ⟨rfl, rfl⟩ <;> rfl)

example : ∃ t, feedthrough 2 1024 128 512 = .ok t ∧ checkConnectionIntegrity compareConfig t true = true := by
  obtain ⟨t, h1, _, h3⟩ := feedthrough_accepted (n := 2) (dftSize := 1024) (hopSize := 128) (period := 512) (by decide)
    ⟨4, rfl⟩
  exact ⟨t, h1, h3⟩

/-- Parameter values of the complete renderer: the message 5 is decoded to the scene 6. -/
example : ∃ p : String → String → Nat,
    Controlled (baselineSite (demo false 4 none) (.atom [] [])) [⟨100, 101⟩, ⟨102, 0⟩] p ∧
      p "SceneReceiver" "messageOutput" = 5 ∧
      p "SceneDecoder" "objectVectorOutput" = p "SceneDecoder" "datagramInput" + 1 := by
  obtain ⟨p0, p1, p2, p3⟩ := baseline_param (demo false 4 none) (.atom [] [])
  refine ⟨fun a b => ((baselineSite (demo false 4 none) (.atom [] [])).findParam a b).elim 0 fun q =>
    if q.id = 100 ∨ q.id = 101 then 5 else 6, fun sc sp s rc rp r hs hr hm => ?_, ?_, ?_⟩
  · simp only [hs, hr, Option.elim_some]
    simp only [List.mem_cons, PConn.mk.injEq, List.not_mem_nil, or_false] at hm
    rcases hm with ⟨h1, h2⟩ | ⟨h1, h2⟩ <;> simp [h1, h2]
  · simp only [p0, Option.elim_some]; rfl
  · simp only [p1, p2, Option.elim_some]; rfl

end Visr.SignalFlows
