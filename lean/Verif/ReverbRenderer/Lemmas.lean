import Verif.ReverbRenderer.Spec
import Verif.Wiring.Lemmas

/-!
# The wiring of the reverberation renderer: lemmas
-/

namespace Visr.ReverbRenderer
open Visr Visr.Flow Visr.Wiring
open Visr.CoreRenderer (PConfig count_range)

theorem findAudio_sites (c : Config) :
    (site c).findAudio "" "in" = some (aport 30 true c.nIn) ∧
    (site c).findAudio "" "out" = some (aport 31 false c.nL) ∧
    (site c).findAudio "signalRouting" "in" = some (aport 2 true c.nIn) ∧
    (site c).findAudio "signalRouting" "out" = some (aport 3 false c.objects) ∧
    (site c).findAudio "discreteReverbDelay" "in" = some (aport 4 true c.total) ∧
    (site c).findAudio "discreteReverbDelay" "out" = some (aport 5 false c.total) ∧
    (site c).findAudio "discreteReverbReflectionFilters" "in" = some (aport 6 true c.total) ∧
    (site c).findAudio "discreteReverbReflectionFilters" "out" = some (aport 7 false c.total) ∧
    (site c).findAudio "discretePanningMatrix" "in" = some (aport 8 true c.total) ∧
    (site c).findAudio "discretePanningMatrix" "out" = some (aport 9 false c.nL) ∧
    (site c).findAudio "lateReverbGainDelay" "in" = some (aport 10 true c.objects) ∧
    (site c).findAudio "lateReverbGainDelay" "out" = some (aport 11 false c.objects) ∧
    (site c).findAudio "lateReverbFilter" "in" = some (aport 12 true c.objects) ∧
    (site c).findAudio "lateReverbFilter" "out" = some (aport 13 false 1) ∧
    (site c).findAudio "decorrelationFilter" "in" = some (aport 14 true 1) ∧
    (site c).findAudio "decorrelationFilter" "out" = some (aport 15 false c.nL) ∧
    (site c).findAudio "Sum" "in0" = some (aport 16 true c.nL) ∧
    (site c).findAudio "Sum" "in1" = some (aport 17 true c.nL) ∧
    (site c).findAudio "Sum" "out" = some (aport 18 false c.nL) := by
  refine ⟨?_, ?_, ?_, ?_, ?_, ?_, ?_, ?_, ?_, ?_, ?_, ?_, ?_, ?_, ?_, ?_, ?_, ?_, ?_⟩ <;>
    simp [Site.findAudio, Site.findComponent, site, calculator, routing, discreteDelay, reflectionFilters, panning,
      lateCalculator, lateGainDelay, lateFilter, decorrelation, mix]

theorem findParam_sites (c : Config) :
    (site c).findParam "" "objectIn" = some (pport 24 true 0 0 .empty) ∧
    (site c).findParam "parameterCalculator" "objectInput" = some (pport 1 true 0 0 .empty) ∧
    (site c).findParam "parameterCalculator" "signalRoutingOut" = some (pport 2 false 0 5 .empty) ∧
    (site c).findParam "parameterCalculator" "discreteGainOut" = some (pport 3 false 0 2 (.vector (c.reflections * c.objects))) ∧
    (site c).findParam "parameterCalculator" "discreteDelayOut" = some (pport 4 false 0 2 (.vector (c.reflections * c.objects))) ∧
    (site c).findParam "parameterCalculator" "discreteEqOut" =
      some (pport 5 false 0 4 (.matrix (c.reflections * c.objects) sections)) ∧
    (site c).findParam "parameterCalculator" "discretePanningGainOut" =
      some (pport 6 false 1 3 (.matrix c.nL (c.reflections * c.objects))) ∧
    (site c).findParam "parameterCalculator" "lateGainOut" = some (pport 7 false 0 2 (.vector c.objects)) ∧
    (site c).findParam "parameterCalculator" "lateDelayOut" = some (pport 8 false 0 2 (.vector c.objects)) ∧
    (site c).findParam "parameterCalculator" "lateSubbandOut" = some (pport 9 false 2 6 .empty) ∧
    (site c).findParam "signalRouting" "controlInput" = some (pport 10 true 0 5 .empty) ∧
    (site c).findParam "discreteReverbDelay" "gainInput" = some (pport 11 true 0 2 (.vector c.total)) ∧
    (site c).findParam "discreteReverbDelay" "delayInput" = some (pport 12 true 0 2 (.vector c.total)) ∧
    (site c).findParam "discreteReverbReflectionFilters" "eqInput" = some (pport 13 true 0 4 (.matrix c.total sections)) ∧
    (site c).findParam "discretePanningMatrix" "gainInput" = some (pport 14 true 1 3 (.matrix c.nL c.total)) ∧
    (site c).findParam "lateReverbCalculator" "subbandInput" = some (pport 15 true 2 6 .empty) ∧
    (site c).findParam "lateReverbCalculator" "lateFilterOutput" = some (pport 16 false 2 7 .empty) ∧
    (site c).findParam "lateReverbGainDelay" "gainInput" = some (pport 17 true 0 2 (.vector c.objects)) ∧
    (site c).findParam "lateReverbGainDelay" "delayInput" = some (pport 18 true 0 2 (.vector c.objects)) ∧
    (site c).findParam "lateReverbFilter" "filterInput" = some (pport 19 true 2 7 .empty) := by
  refine ⟨?_, ?_, ?_, ?_, ?_, ?_, ?_, ?_, ?_, ?_, ?_, ?_, ?_, ?_, ?_, ?_, ?_, ?_, ?_, ?_⟩ <;>
    simp [Site.findParam, Site.findComponent, site, calculator, routing, discreteDelay, reflectionFilters, panning,
      lateCalculator, lateGainDelay, lateFilter, decorrelation, mix]

/-- The audio connections. -/
def links (c : Config) : List Link :=
  [⟨aport 30 true c.nIn, List.range c.nIn, aport 2 true c.nIn, List.range c.nIn⟩,
   ⟨aport 3 false c.objects, fanOut c, aport 4 true c.total, List.range c.total⟩,
   ⟨aport 5 false c.total, List.range c.total, aport 6 true c.total, List.range c.total⟩,
   ⟨aport 7 false c.total, List.range c.total, aport 8 true c.total, List.range c.total⟩,
   ⟨aport 9 false c.nL, List.range c.nL, aport 16 true c.nL, List.range c.nL⟩,
   ⟨aport 3 false c.objects, List.range c.objects, aport 10 true c.objects, List.range c.objects⟩,
   ⟨aport 11 false c.objects, List.range c.objects, aport 12 true c.objects, List.range c.objects⟩,
   ⟨aport 13 false 1, List.range 1, aport 14 true 1, List.range 1⟩,
   ⟨aport 15 false c.nL, List.range c.nL, aport 17 true c.nL, List.range c.nL⟩,
   ⟨aport 18 false c.nL, List.range c.nL, aport 31 false c.nL, List.range c.nL⟩]

/-- The parameter connections. -/
def plinks (c : Config) : List (PPort × PPort) :=
  [(pport 24 true 0 0 .empty, pport 1 true 0 0 .empty), (pport 2 false 0 5 .empty, pport 10 true 0 5 .empty),
   (pport 3 false 0 2 (.vector (c.reflections * c.objects)), pport 11 true 0 2 (.vector c.total)),
   (pport 4 false 0 2 (.vector (c.reflections * c.objects)), pport 12 true 0 2 (.vector c.total)),
   (pport 5 false 0 4 (.matrix (c.reflections * c.objects) sections), pport 13 true 0 4 (.matrix c.total sections)),
   (pport 6 false 1 3 (.matrix c.nL (c.reflections * c.objects)), pport 14 true 1 3 (.matrix c.nL c.total)),
   (pport 7 false 0 2 (.vector c.objects), pport 17 true 0 2 (.vector c.objects)),
   (pport 8 false 0 2 (.vector c.objects), pport 18 true 0 2 (.vector c.objects)),
   (pport 9 false 2 6 .empty, pport 15 true 2 6 .empty), (pport 16 false 2 7 .empty, pport 19 true 2 7 .empty)]

theorem fanOut_fits (c : Config) :
    (Link.mk (aport 3 false c.objects) (fanOut c) (aport 4 true c.total) (List.range c.total)).Fits := by
  refine ⟨by simp [fanOut], fun i hi => ?_, fun i hi => List.mem_range.1 hi⟩
  obtain ⟨k, hk, rfl⟩ := List.mem_map.1 hi
  have hk := List.mem_range.1 hk
  exact Nat.div_lt_of_lt_mul (by rw [Nat.mul_comm]; exact hk)

theorem execAll_calls (c : Config) :
    execAll (site c) (calls c) ⟨[], []⟩ =
      .ok ⟨(links c).flatMap Link.conns, (plinks c).map fun l => ⟨l.1.id, l.2.id⟩⟩ := by
  obtain ⟨a0, a1, a2, a3, a4, a5, a6, a7, a8, a9, a10, a11, a12, a13, a14, a15, a16, a17, a18⟩ := findAudio_sites c
  obtain ⟨p0, p1, p2, p3, p4, p5, p6, p7, p8, p9, p10, p11, p12, p13, p14, p15, p16, p17, p18, p19⟩ := findParam_sites c
  unfold calls
  rw [execAll_cons (exec_audio a0 a2 rfl _), execAll_cons (exec_lists a3 a4 (fanOut_fits c) _),
    execAll_cons (exec_audio a5 a6 rfl _), execAll_cons (exec_audio a7 a8 rfl _),
    execAll_cons (exec_audio a9 a16 rfl _), execAll_cons (exec_audio a3 a10 rfl _),
    execAll_cons (exec_audio a11 a12 rfl _), execAll_cons (exec_audio a13 a14 rfl _),
    execAll_cons (exec_audio a15 a17 rfl _), execAll_cons (exec_audio a18 a1 rfl _),
    execAll_cons (exec_param p0 p1 _), execAll_cons (exec_param p2 p10 _), execAll_cons (exec_param p3 p11 _),
    execAll_cons (exec_param p4 p12 _), execAll_cons (exec_param p5 p13 _), execAll_cons (exec_param p6 p14 _),
    execAll_cons (exec_param p7 p17 _), execAll_cons (exec_param p8 p18 _), execAll_cons (exec_param p9 p15 _),
    execAll_cons (exec_param p16 p19 _)]
  simp only [execAll, links, plinks, List.flatMap_cons, List.flatMap_nil, List.append_nil, List.nil_append, List.map_cons,
    List.map_nil, List.append_assoc, List.cons_append]
  rfl

/-- The component tree. -/
def tree (c : Config) : Comp :=
  .composite ((site c).audio.map Prod.snd) ((site c).param.map Prod.snd) ((site c).parts.map Part.comp)
    ((links c).flatMap Link.conns) ((plinks c).map fun l => ⟨l.1.id, l.2.id⟩)

theorem registered (c : Config) : (site c).registered = true := by
  simp [Site.registered, site, calculator, routing, discreteDelay, reflectionFilters, panning, lateCalculator,
    lateGainDelay, lateFilter, decorrelation, mix]

theorem build_ok (c : Config) : (site c).build (calls c) = .ok (tree c) := by
  unfold Site.build
  rw [if_pos (registered c), execAll_calls]
  rfl

theorem kids_audio (c : Config) : ((site c).parts.map Part.comp).map Comp.audio =
    [[], [aport 2 true c.nIn, aport 3 false c.objects], [aport 4 true c.total, aport 5 false c.total],
     [aport 8 true c.total, aport 9 false c.nL], [aport 10 true c.objects, aport 11 false c.objects],
     [aport 16 true c.nL, aport 17 true c.nL, aport 18 false c.nL], [aport 6 true c.total, aport 7 false c.total], [],
     [aport 12 true c.objects, aport 13 false 1], [aport 14 true 1, aport 15 false c.nL]] := rfl

theorem kids_param (c : Config) : ((site c).parts.map Part.comp).map Comp.param =
    [[pport 1 true 0 0 .empty, pport 2 false 0 5 .empty, pport 3 false 0 2 (.vector (c.reflections * c.objects)),
      pport 4 false 0 2 (.vector (c.reflections * c.objects)),
      pport 5 false 0 4 (.matrix (c.reflections * c.objects) sections),
      pport 6 false 1 3 (.matrix c.nL (c.reflections * c.objects)), pport 7 false 0 2 (.vector c.objects),
      pport 8 false 0 2 (.vector c.objects), pport 9 false 2 6 .empty],
     [pport 10 true 0 5 .empty], [pport 11 true 0 2 (.vector c.total), pport 12 true 0 2 (.vector c.total)],
     [pport 14 true 1 3 (.matrix c.nL c.total)],
     [pport 17 true 0 2 (.vector c.objects), pport 18 true 0 2 (.vector c.objects)], [],
     [pport 13 true 0 4 (.matrix c.total sections)], [pport 15 true 2 6 .empty, pport 16 false 2 7 .empty],
     [pport 19 true 2 7 .empty], []] := rfl

theorem audio_ok (c : Config) : AudioOK ((site c).audio.map Prod.snd) (((site c).parts.map Part.comp).map Comp.audio)
    ((links c).flatMap Link.conns) := by
  rw [kids_audio]
  have hown : (site c).audio.map Prod.snd = [aport 30 true c.nIn, aport 31 false c.nL] := rfl
  rw [hown]
  refine audioOK_of_links ?_ ?_ ?_ ?_ ?_
  · intro l hl
    simp only [links, List.mem_cons, List.not_mem_nil, or_false] at hl
    rcases hl with rfl | rfl | rfl | rfl | rfl | rfl | rfl | rfl | rfl | rfl <;> simp [CanSend, aport]
  · intro l hl
    simp only [links, List.mem_cons, List.not_mem_nil, or_false] at hl
    rcases hl with rfl | rfl | rfl | rfl | rfl | rfl | rfl | rfl | rfl | rfl <;> simp [CanReceive, aport]
  · intro l hl
    simp only [links, List.mem_cons, List.not_mem_nil, or_false] at hl
    rcases hl with rfl | rfl | rfl | rfl | rfl | rfl | rfl | rfl | rfl | rfl
    case inr.inl => exact fanOut_fits c
    all_goals exact whole_fits rfl
  · intro r hr i hi
    rw [← mem_receivePorts] at hr
    simp [receivePorts, aport] at hr
    rcases hr with rfl | rfl | rfl | rfl | rfl | rfl | rfl | rfl | rfl | rfl <;>
    · simp only at hi
      simp [links, aport, hi]
      try
        have h0 : i = 0 := by omega
        subst h0
        rfl
  · intro s hs i hi
    rw [← mem_sendPorts] at hs
    simp [sendPorts, aport] at hs
    rcases hs with rfl | rfl | rfl | rfl | rfl | rfl | rfl | rfl | rfl <;>
    · simp only at hi
      simp [links, aport, hi]
      try omega

theorem param_ok (c : Config) : ParamOK CoreRenderer.compareConfig ((site c).param.map Prod.snd)
    (((site c).parts.map Part.comp).map Comp.param) ((plinks c).map fun l => ⟨l.1.id, l.2.id⟩) := by
  rw [kids_param]
  have hown : (site c).param.map Prod.snd = [pport 24 true 0 0 .empty] := rfl
  have ht : c.reflections * c.objects = c.total := Nat.mul_comm _ _
  rw [hown]
  unfold plinks
  rw [ht]
  refine paramOK_of_links ?_ ?_ ?_ ?_ ?_
  · intro l hl
    simp only [List.mem_cons, List.not_mem_nil, or_false] at hl
    rcases hl with rfl | rfl | rfl | rfl | rfl | rfl | rfl | rfl | rfl | rfl <;> simp [CanSend, pport]
  · intro l hl
    simp only [List.mem_cons, List.not_mem_nil, or_false] at hl
    rcases hl with rfl | rfl | rfl | rfl | rfl | rfl | rfl | rfl | rfl | rfl <;> simp [CanReceive, pport]
  · intro l hl
    simp only [List.mem_cons, List.not_mem_nil, or_false] at hl
    rcases hl with rfl | rfl | rfl | rfl | rfl | rfl | rfl | rfl | rfl | rfl <;> exact matches_same _ _ _ _ _ _ _
  · intro r hr
    rw [← mem_receivePorts] at hr
    simp [receivePorts, pport] at hr
    rcases hr with rfl | rfl | rfl | rfl | rfl | rfl | rfl | rfl | rfl | rfl <;> simp [pport]
  · intro s hs
    rw [← mem_sendPorts] at hs
    simp [sendPorts, pport] at hs
    rcases hs with rfl | rfl | rfl | rfl | rfl | rfl | rfl | rfl | rfl | rfl <;> simp [pport]

theorem part_comp_atom (c : Config) : ∀ k ∈ (site c).parts.map Part.comp, ∃ a p, k = Comp.atom a p := by
  intro k hk
  simp only [site, List.map_cons, List.map_nil, List.mem_cons, List.not_mem_nil, or_false] at hk
  rcases hk with rfl | rfl | rfl | rfl | rfl | rfl | rfl | rfl | rfl | rfl <;> exact ⟨_, _, rfl⟩

theorem wellConnected (c : Config) : WellConnected CoreRenderer.compareConfig (tree c) := by
  refine wellConnected_composite (audio_ok c) (param_ok c) fun k hk => ?_
  obtain ⟨a, p, rfl⟩ := part_comp_atom c k hk
  exact wellConnected_atom

theorem distinct (c : Config) : DistinctAddresses (tree c) := by
  refine distinct_composite ?_ ?_ fun k hk => ?_
  · rw [kids_audio]
    simp [DistinctPorts, site, aport]
  · rw [kids_param]
    simp [DistinctPorts, site, pport]
  · obtain ⟨a, p, rfl⟩ := part_comp_atom c k hk
    exact distinct_atom

end Visr.ReverbRenderer
