import Verif.SignalFlows.Lemmas

/-!
# Lemmas about the complete renderers
-/

namespace Visr.SignalFlows
open Visr Visr.Flow Visr.Wiring
open Visr.CoreRenderer (PConfig compareConfig)
open Visr.ReverbRenderer (aport pport)

section
variable (c : CoreRenderer.Config) (t : Comp)

/-- The core renderer's ports. -/
def cIn : APort := aport 0 true c.nIn
def cOut : APort := aport 1 false c.nOut

theorem port_in : c.port .audioIn = cIn c := rfl
theorem port_out : c.port .audioOut = cOut c := rfl
def cObj : PPort := ⟨CoreRenderer.PName.id .objectData, true, 0, 0, PConfig.empty.code⟩
def cTrack : PPort := ⟨CoreRenderer.PName.id .trackingPosition, true, 0, 1, PConfig.empty.code⟩

theorem baseline_audio :
    (baselineSite c t).findAudio "" "input" = some (aport 100 true c.nIn) ∧
    (baselineSite c t).findAudio "" "output" = some (aport 101 false c.nOut) ∧
    (baselineSite c t).findAudio "CoreRenderer" "audioIn" = some (aport 0 true c.nIn) ∧
    (baselineSite c t).findAudio "CoreRenderer" "audioOut" = some (aport 1 false c.nOut) := by
  refine ⟨?_, ?_, ?_, ?_⟩ <;>
    simp [Site.findAudio, Site.findComponent, baselineSite, receiver, sceneDecoder, corePart] <;> rfl

theorem baseline_param :
    (baselineSite c t).findParam "SceneReceiver" "messageOutput" = some (pport 100 false 2 8 .empty) ∧
    (baselineSite c t).findParam "SceneDecoder" "datagramInput" = some (pport 101 true 2 8 .empty) ∧
    (baselineSite c t).findParam "SceneDecoder" "objectVectorOutput" = some (pport 102 false 0 0 .empty) ∧
    (baselineSite c t).findParam "CoreRenderer" "objectDataInput" = some (cObj) := by
  refine ⟨?_, ?_, ?_, ?_⟩ <;>
    simp [Site.findParam, Site.findComponent, baselineSite, receiver, sceneDecoder, corePart] <;> rfl

theorem baseline_tracking (ht : c.tracking = true) :
    (baselineSite c t).findParam "TrackingPositionDecoder" "positionOutput" = some (pport 105 false 0 1 .empty) ∧
    (baselineSite c t).findParam "CoreRenderer" "trackingPositionInput" = some cTrack := by
  refine ⟨?_, ?_⟩ <;>
    simp [Site.findParam, Site.findComponent, baselineSite, receiver, sceneDecoder, corePart, positionDecoder, ht] <;> rfl

def baselineLinks : List Link :=
  [⟨aport 100 true c.nIn, List.range c.nIn, aport 0 true c.nIn, List.range c.nIn⟩,
   ⟨aport 1 false c.nOut, List.range c.nOut, aport 101 false c.nOut, List.range c.nOut⟩]

def baselinePLinks : List (PPort × PPort) :=
  [(pport 100 false 2 8 .empty, pport 101 true 2 8 .empty), (pport 102 false 0 0 .empty, cObj)] ++
    if c.tracking then [(pport 105 false 0 1 .empty, cTrack)] else []

theorem baseline_calls : execAll (baselineSite c t) (baselineCalls c) ⟨[], []⟩ =
    .ok ⟨(baselineLinks c).flatMap Link.conns, (baselinePLinks c).map fun l => ⟨l.1.id, l.2.id⟩⟩ := by
  obtain ⟨a0, a1, a2, a3⟩ := baseline_audio c t
  obtain ⟨p0, p1, p2, p3⟩ := baseline_param c t
  unfold baselineCalls
  simp only [List.cons_append, List.nil_append]
  rw [execAll_cons (exec_audio a0 a2 rfl _), execAll_cons (exec_audio a3 a1 rfl _), execAll_cons (exec_param p0 p1 _),
    execAll_cons (exec_param p2 p3 _)]
  cases ht : c.tracking
  · simp [execAll, baselineLinks, baselinePLinks, ht, aport]
  · obtain ⟨q0, q1⟩ := baseline_tracking c t ht
    rw [if_pos rfl, execAll_cons (exec_param q0 q1 _)]
    simp [execAll, baselineLinks, baselinePLinks, ht, aport]

theorem baseline_registered : (baselineSite c t).registered = true := by
  cases ht : c.tracking <;>
    simp [Site.registered, baselineSite, receiver, sceneDecoder, corePart, positionDecoder, ht]

theorem baseline_build : (baselineSite c t).build (baselineCalls c) = .ok (.composite
    [aport 100 true c.nIn, aport 101 false c.nOut] [] ((baselineSite c t).parts.map Part.comp)
    ((baselineLinks c).flatMap Link.conns) ((baselinePLinks c).map fun l => ⟨l.1.id, l.2.id⟩)) := by
  unfold Site.build
  rw [if_pos (baseline_registered c t), baseline_calls]
  rfl

end

section
variable {c : CoreRenderer.Config} {t : Comp} {reverb : Reverb}

theorem atom_audio (a : List APort) (p : List PPort) : (Comp.atom a p).audio = a := rfl
theorem atom_param (a : List APort) (p : List PPort) : (Comp.atom a p).param = p := rfl

theorem core_comp (h : core c reverb = .ok t) : (corePart c t).comp = t := by
  obtain ⟨_, kids, conns, pconns, rfl⟩ := core_shape h
  exact corePart_comp

/-- The components of the complete renderer. -/
theorem baseline_parts (h : core c reverb = .ok t) : (baselineSite c t).parts.map Part.comp =
    [.atom [] [pport 100 false 2 8 .empty], .atom [] [pport 101 true 2 8 .empty, pport 102 false 0 0 .empty], t] ++
      if c.tracking then [.atom [] [pport 103 false 2 8 .empty],
        .atom [] [pport 104 true 2 8 .empty, pport 105 false 0 1 .empty]] else [] := by
  cases ht : c.tracking <;>
    simp only [baselineSite, ht, if_true, Bool.false_eq_true, if_false, List.map_append, List.map_cons, List.map_nil,
      core_comp h] <;> rfl

theorem core_audio (h : core c reverb = .ok t) : t.audio = [aport 0 true c.nIn, aport 1 false c.nOut] := by
  obtain ⟨_, kids, conns, pconns, rfl⟩ := core_shape h
  rfl

theorem core_param (h : core c reverb = .ok t) : t.param = cObj :: if c.tracking then [cTrack] else [] := by
  obtain ⟨_, kids, conns, pconns, rfl⟩ := core_shape h
  simp only [Comp.param, CoreRenderer.Config.ownParams]
  cases c.tracking <;> rfl

theorem baseline_distinct (h : core c reverb = .ok t) (conns : List AConn) (pconns : List PConn) :
    DistinctAddresses (.composite [aport 100 true c.nIn, aport 101 false c.nOut] []
      ((baselineSite c t).parts.map Part.comp) conns pconns) := by
  rw [baseline_parts h]
  refine distinct_composite ?_ ?_ fun k hk => ?_
  · cases ht : c.tracking <;> simp [atom_audio, core_audio h, DistinctPorts, aport]
  · cases ht : c.tracking <;>
      simp [atom_param, core_param h, DistinctPorts, ht, pport, cObj, cTrack, CoreRenderer.PName.id]
  · have hk' : k = t ∨ ∃ a p, k = .atom a p := by
      cases ht : c.tracking
      · simp only [ht, Bool.false_eq_true, if_false, List.append_nil, List.mem_cons, List.not_mem_nil, or_false] at hk
        rcases hk with hk | hk | hk
        · exact Or.inr ⟨_, _, hk⟩
        · exact Or.inr ⟨_, _, hk⟩
        · exact Or.inl hk
      · simp only [ht, if_true, List.cons_append, List.nil_append, List.mem_cons, List.not_mem_nil, or_false] at hk
        rcases hk with hk | hk | hk | hk | hk
        · exact Or.inr ⟨_, _, hk⟩
        · exact Or.inr ⟨_, _, hk⟩
        · exact Or.inl hk
        · exact Or.inr ⟨_, _, hk⟩
        · exact Or.inr ⟨_, _, hk⟩
    rcases hk' with rfl | ⟨a, p, rfl⟩
    · exact (core_shape h).1
    · exact distinct_atom

theorem baseline_wellConnected (h : core c reverb = .ok t) (hw : WellConnected compareConfig t)
    (ht : c.tracking = false) : WellConnected compareConfig (.composite
    [aport 100 true c.nIn, aport 101 false c.nOut] [] ((baselineSite c t).parts.map Part.comp)
    ((baselineLinks c).flatMap Link.conns) ((baselinePLinks c).map fun l => ⟨l.1.id, l.2.id⟩)) := by
  rw [baseline_parts h]
  simp only [ht, Bool.false_eq_true, if_false, List.append_nil]
  have e1 : [Comp.atom [] [pport 100 false 2 8 .empty], .atom [] [pport 101 true 2 8 .empty, pport 102 false 0 0 .empty],
      t].map Comp.audio = [[], [], [aport 0 true c.nIn, aport 1 false c.nOut]] := by
    simp [atom_audio, core_audio h]
  have e2 : [Comp.atom [] [pport 100 false 2 8 .empty], .atom [] [pport 101 true 2 8 .empty, pport 102 false 0 0 .empty],
      t].map Comp.param = [[pport 100 false 2 8 .empty], [pport 101 true 2 8 .empty, pport 102 false 0 0 .empty], [cObj]] := by
    simp [atom_param, core_param h, ht]
  refine wellConnected_composite ?_ ?_ fun k hk => ?_
  · rw [e1]
    refine audioOK_of_links ?_ ?_ ?_ ?_ ?_
    · intro l hl
      simp only [baselineLinks, List.mem_cons, List.not_mem_nil, or_false] at hl
      rcases hl with rfl | rfl <;> simp [CanSend, aport]
    · intro l hl
      simp only [baselineLinks, List.mem_cons, List.not_mem_nil, or_false] at hl
      rcases hl with rfl | rfl <;> simp [CanReceive, aport]
    · intro l hl
      simp only [baselineLinks, List.mem_cons, List.not_mem_nil, or_false] at hl
      rcases hl with rfl | rfl <;> exact whole_fits rfl
    · intro r hr i hi
      rw [← mem_receivePorts] at hr
      simp [receivePorts, aport] at hr
      rcases hr with rfl | rfl <;>
      · simp only at hi
        simp [baselineLinks, aport, hi]
    · intro s hs i hi
      rw [← mem_sendPorts] at hs
      simp [sendPorts, aport] at hs
      rcases hs with rfl | rfl <;>
      · simp only at hi
        simp [baselineLinks, aport, hi]
  · rw [e2]
    simp only [baselinePLinks, ht, Bool.false_eq_true, if_false, List.append_nil]
    refine paramOK_of_links ?_ ?_ ?_ ?_ ?_
    · intro l hl
      simp only [List.mem_cons, List.not_mem_nil, or_false] at hl
      rcases hl with rfl | rfl <;> simp [CanSend, pport]
    · intro l hl
      simp only [List.mem_cons, List.not_mem_nil, or_false] at hl
      rcases hl with rfl | rfl <;> simp [CanReceive, pport, cObj]
    · intro l hl
      simp only [List.mem_cons, List.not_mem_nil, or_false] at hl
      rcases hl with rfl | rfl <;> exact matches_same _ _ _ _ _ _ _
    · intro r hr
      rw [← mem_receivePorts] at hr
      simp [receivePorts, pport, cObj] at hr
      rcases hr with rfl | rfl <;> simp [pport, cObj]
    · intro s hs
      rw [← mem_sendPorts] at hs
      simp [sendPorts, pport, cObj] at hs
      rcases hs with rfl | rfl <;> simp [pport]
  · simp only [List.mem_cons, List.not_mem_nil, or_false] at hk
    rcases hk with rfl | rfl | rfl
    · exact wellConnected_atom
    · exact wellConnected_atom
    · exact hw

/-! ## The bunch renderer -/

variable (c t) in
theorem bunch_build : ∃ cp : List PConn, (bunchSite c t).build (bunchCalls c) = .ok (.composite
    [aport 100 true c.nIn, aport 101 false c.nOut] [] ((bunchSite c t).parts.map Part.comp)
    [⟨100, List.range c.nIn, 0, List.range c.nIn⟩, ⟨1, List.range c.nOut, 101, List.range c.nIn⟩]
    cp) ∧ cp = [⟨100, 101⟩, ⟨102, (cObj).id⟩] := by
  have a0 : (bunchSite c t).findAudio "" "input" = some (aport 100 true c.nIn) := by
    simp [Site.findAudio, Site.findComponent, bunchSite]
  have a1 : (bunchSite c t).findAudio "" "output" = some (aport 101 false c.nOut) := by
    simp [Site.findAudio, Site.findComponent, bunchSite]
  have a2 : (bunchSite c t).findAudio "CoreRenderer" "audioIn" = some (aport 0 true c.nIn) := by
    simp [Site.findAudio, Site.findComponent, bunchSite, receiver, sceneDecoder, corePart]; rfl
  have a3 : (bunchSite c t).findAudio "CoreRenderer" "audioOut" = some (aport 1 false c.nOut) := by
    simp [Site.findAudio, Site.findComponent, bunchSite, receiver, sceneDecoder, corePart]; rfl
  have p0 : (bunchSite c t).findParam "SceneReceiver" "messageOutput" = some (pport 100 false 2 8 .empty) := by
    simp [Site.findParam, Site.findComponent, bunchSite, receiver]
  have p1 : (bunchSite c t).findParam "SceneDecoder" "datagramInput" = some (pport 101 true 2 8 .empty) := by
    simp [Site.findParam, Site.findComponent, bunchSite, receiver, sceneDecoder]
  have p2 : (bunchSite c t).findParam "SceneDecoder" "objectVectorOutput" = some (pport 102 false 0 0 .empty) := by
    simp [Site.findParam, Site.findComponent, bunchSite, receiver, sceneDecoder]
  have p3 : (bunchSite c t).findParam "CoreRenderer" "objectDataInput" = some cObj := by
    simp [Site.findParam, Site.findComponent, bunchSite, receiver, sceneDecoder, corePart]; rfl
  refine ⟨_, ?_, rfl⟩
  unfold Site.build
  rw [if_pos (by cases ht : c.tracking <;> simp [Site.registered, bunchSite, receiver, sceneDecoder, corePart, ht])]
  unfold bunchCalls
  rw [execAll_cons (exec_param p0 p1 _), execAll_cons (exec_param p2 p3 _), execAll_cons (exec_named a0 a2 _),
    execAll_cons (exec_named a3 a1 _)]
  simp [execAll, aport, pport, bunchSite]

theorem bunch_parts (h : core c reverb = .ok t) : (bunchSite c t).parts.map Part.comp =
    [.atom [] [pport 100 false 2 8 .empty], .atom [] [pport 101 true 2 8 .empty, pport 102 false 0 0 .empty], t] := by
  simp only [bunchSite, List.map_cons, List.map_nil, core_comp h]
  rfl

theorem bunch_distinct (h : core c reverb = .ok t) (conns : List AConn) (pconns : List PConn) :
    DistinctAddresses (.composite [aport 100 true c.nIn, aport 101 false c.nOut] []
      ((bunchSite c t).parts.map Part.comp) conns pconns) := by
  rw [bunch_parts h]
  refine distinct_composite ?_ ?_ fun k hk => ?_
  · simp [atom_audio, core_audio h, DistinctPorts, aport]
  · cases ht : c.tracking <;>
      simp [atom_param, core_param h, DistinctPorts, ht, pport, cObj, cTrack, CoreRenderer.PName.id]
  · simp only [List.mem_cons, List.not_mem_nil, or_false] at hk
    rcases hk with rfl | rfl | rfl
    · exact distinct_atom
    · exact distinct_atom
    · exact (core_shape h).1

theorem bunch_wellConnected (h : core c reverb = .ok t) (hw : WellConnected compareConfig t)
    (ht : c.tracking = false) (hn : c.nIn = c.nOut) : WellConnected compareConfig (.composite
    [aport 100 true c.nIn, aport 101 false c.nOut] [] ((bunchSite c t).parts.map Part.comp)
    [⟨100, List.range c.nIn, 0, List.range c.nIn⟩, ⟨1, List.range c.nOut, 101, List.range c.nIn⟩]
    [⟨100, 101⟩, ⟨102, (cObj).id⟩]) := by
  have hb := baseline_wellConnected h hw ht _ _ _ _ _ (.self _)
  rw [baseline_parts h] at hb
  simp only [ht, Bool.false_eq_true, if_false, List.append_nil] at hb
  rw [bunch_parts h]
  have e1 : [Comp.atom [] [pport 100 false 2 8 .empty], .atom [] [pport 101 true 2 8 .empty, pport 102 false 0 0 .empty],
      t].map Comp.audio = [[], [], [aport 0 true c.nIn, aport 1 false c.nOut]] := by
    simp [atom_audio, core_audio h]
  refine wellConnected_composite ?_ ?_ fun k hk => ?_
  · rw [e1]
    have : ([⟨100, List.range c.nIn, 0, List.range c.nIn⟩, ⟨1, List.range c.nOut, 101, List.range c.nIn⟩] : List AConn) =
        (baselineLinks c).map named := by
      simp only [baselineLinks, hn]
      rfl
    rw [this]
    refine audioOK_of_named ?_ ?_ ?_ ?_ ?_
    · intro l hl
      simp only [baselineLinks, List.mem_cons, List.not_mem_nil, or_false] at hl
      rcases hl with rfl | rfl <;> simp [CanSend, aport]
    · intro l hl
      simp only [baselineLinks, List.mem_cons, List.not_mem_nil, or_false] at hl
      rcases hl with rfl | rfl <;> simp [CanReceive, aport]
    · intro l hl
      simp only [baselineLinks, List.mem_cons, List.not_mem_nil, or_false] at hl
      rcases hl with rfl | rfl <;> exact whole_fits rfl
    · intro r hr i hi
      rw [← mem_receivePorts] at hr
      simp [receivePorts, aport] at hr
      rcases hr with rfl | rfl <;>
      · simp only at hi
        simp [baselineLinks, aport, hi]
    · intro s hs i hi
      rw [← mem_sendPorts] at hs
      simp [sendPorts, aport] at hs
      rcases hs with rfl | rfl <;>
      · simp only at hi
        simp [baselineLinks, aport, hi]
  · have hp := hb.2
    simp only [baselinePLinks, ht, Bool.false_eq_true, if_false, List.append_nil] at hp
    exact hp
  · simp only [List.mem_cons, List.not_mem_nil, or_false] at hk
    rcases hk with rfl | rfl | rfl
    · exact wellConnected_atom
    · exact wellConnected_atom
    · exact hw

end

end Visr.SignalFlows
