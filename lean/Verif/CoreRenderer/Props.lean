import Verif.CoreRenderer.Wiring
import Mathlib.Algebra.Ring.Int.Defs

/-!
# C59: the loudspeaker renderer is completely wired and plays every signal on its output channel
-/

namespace Visr.CoreRenderer
open Visr Visr.Flow

/-- **C59.** Without listener tracking, the renderer can be constructed exactly for the valid configurations; all others
are rejected with an exception (never undefined, and never accepted with a wrong output assignment).
Partial: fails with tracking (`tracking_equaliser_subwoofers_throws`) and without delays (`no_delays_undefined`). -/
theorem constructs_iff_valid_partial {c : Config} (ht : c.tracking = false) (hd : 0 < c.delays) (hn : c.nOut < 2 ^ 64) :
    ((∃ t, construct c = .ok t) ↔ Valid c) ∧ (¬ Valid c → construct c = .throw .invalidArgument) := by
  have h2 : ¬ Valid c → construct c = .throw .invalidArgument := by
    intro h
    unfold construct
    rw [audioConnections_invalid h hn ht hd]
    rfl
  refine ⟨⟨?_, ?_⟩, h2⟩
  · rintro ⟨t, e⟩
    by_contra h
    rw [h2 h] at e
    cases e
  · intro h
    exact ⟨_, construct_ok h ht hd⟩

/-- **C59.** The renderer of a valid configuration without tracking passes the connection check of the runtime engine:
inside the renderer every receive channel has exactly one source, every send channel is used and all parameter ports are
connected to matching ones. Partial: fails with tracking (`tracking_rejected`). -/
theorem renderer_accepted_partial {c : Config} (h : Valid c) (ht : c.tracking = false) (hd : 0 < c.delays) :
    ∃ t, construct c = .ok t ∧ WellConnected compareConfig t ∧ checkConnectionIntegrity compareConfig t true = true := by
  refine ⟨tree c, construct_ok h ht hd, ?_⟩
  have hw : WellConnected compareConfig (tree c) := by
    intro o p ch ac pc hin
    have e := within_tree (atoms c) hin
    injection e with e1 e2 e3 e4 e5
    subst e1 e2 e3 e4 e5
    rw [children_audio, children_param]
    exact ⟨audio_ok h ht, param_ok ht⟩
  exact ⟨hw, (connectionCheck_iff_partial _ _ (distinct_tree c _ _)).2 hw⟩

/-- **C59.** An `audioConnection()` call with channel lists is accepted exactly if both lists are equally long and all
their channels exist. -/
theorem connection_accepted_iff (w : Port → Nat) (s r : Port) (si ri : List Nat) (conns : List AConn) :
    (∃ conns', connectPart w s si r ri conns = .ok conns') ↔
      si.length = ri.length ∧ (∀ i ∈ si, i < w s) ∧ (∀ j ∈ ri, j < w r) := by
  have hmax : ∀ (l : List Nat) (a b : Nat), l.foldl max a < b ↔ a < b ∧ ∀ i ∈ l, i < b := by
    intro l
    induction l with
    | nil => simp
    | cons x l ih =>
      intro a b
      rw [List.foldl_cons, ih, Nat.max_lt]
      simp only [List.mem_cons, forall_eq_or_imp]
      tauto
  have hm : ∀ (l : List Nat) (b : Nat), l ≠ [] → (maxChannelIndex l < b ↔ ∀ i ∈ l, i < b) := by
    intro l b hl
    unfold maxChannelIndex
    rw [hmax]
    refine ⟨fun h => h.2, fun h => ⟨?_, h⟩⟩
    obtain ⟨x, l', rfl⟩ := List.exists_cons_of_ne_nil hl
    exact Nat.lt_of_le_of_lt (Nat.zero_le _) (h x (by simp))
  unfold connectPart
  by_cases hl : si.length = ri.length
  · rw [if_neg (by simpa using hl)]
    by_cases h0 : si.length = 0
    · rw [if_pos h0]
      have e1 := List.length_eq_zero_iff.1 h0
      have e2 := List.length_eq_zero_iff.1 (hl ▸ h0)
      subst e1 e2
      simp
    · rw [if_neg h0]
      have n1 : si ≠ [] := fun e => h0 (by simp [e])
      have n2 : ri ≠ [] := fun e => h0 (by rw [hl]; simp [e])
      by_cases a1 : w s ≤ maxChannelIndex si
      · rw [if_pos a1]
        simp only [reduceCtorEq, exists_false, false_iff, not_and]
        intro _ h
        exact absurd ((hm _ _ n1).2 h) (by omega)
      · rw [if_neg a1]
        by_cases a2 : w r ≤ maxChannelIndex ri
        · rw [if_pos a2]
          simp only [reduceCtorEq, exists_false, false_iff, not_and]
          intro _ _ h
          exact absurd ((hm _ _ n2).2 h) (by omega)
        · rw [if_neg a2]
          simp only [Outcome.ok.injEq, exists_eq', true_iff]
          exact ⟨hl, (hm _ _ n1).1 (by omega), (hm _ _ n2).1 (by omega)⟩
  · rw [if_pos hl]
    simp [hl]

/-- **C59.** The parameters of each component have the sizes of its audio ports: gain vectors one entry per channel,
equaliser matrices one row per channel, gain matrices one row per output and one column per input. -/
theorem parameters_sized (c : Config) :
    c.pconfig .objectGain = .vector (c.width .objectGainIn) ∧
    c.pconfig .objectEq = .matrix (c.width .objectEqIn) c.sections ∧
    c.pconfig .vbapGain = .matrix (c.width .vbapOut) (c.width .vbapIn) ∧
    c.pconfig .vbipGain = .matrix (c.width .vbipOut) (c.width .vbipIn) ∧
    c.pconfig .diffuseGain = .matrix (c.width .diffuseOut) (c.width .diffuseIn) ∧
    c.pconfig .lisGain = .vector (c.width .listenerIn) ∧ c.pconfig .lisDelay = .vector (c.width .listenerIn) :=
  ⟨rfl, rfl, rfl, rfl, rfl, rfl, rfl⟩

/-- **C59.** Every component is controlled by what its calculator makes of the current scene: object gains and equalisers,
the panning matrices (the low frequency one with the ambisonics objects inserted), the diffuse gains, and the scene itself
for the reverberation. -/
theorem parameters_follow_scene {c : Config} (ht : c.tracking = false) {own : List APort} {param : List PPort}
    {kids : List Comp} {conns : List AConn} {pconns : List PConn}
    (h : construct c = .ok (.composite own param kids conns pconns)) {V : Type} {f : Calculators V} {p : PName → V}
    (hp : Controlled pconns f p) :
    p .objectGain = f.gain (p .objectData) ∧ p .objectEq = f.eq (p .objectData) ∧
    p .vbapGain = f.allrad (p .objectData) (f.vbap (p .objectData)) ∧
    (c.freqDep = true → p .vbipGain = f.vbip (p .objectData)) ∧
    p .diffuseGain = f.diffuse (p .objectData) ∧ (c.reverb = true → p .reverbObjects = p .objectData) := by
  have hc : pconns = c.paramCalls.map fun k => ⟨k.1.id, k.2.id⟩ := by
    unfold construct at h
    cases hc : audioConnections c with
    | throw e => rw [hc] at h; cases h
    | ub => rw [hc] at h; cases h
    | ok conns' =>
      rw [hc, Outcome.ok_bind] at h
      injection h with h
      injection h with _ _ _ _ h5
      exact h5.symm
  have w : ∀ a b : PName, (a, b) ∈ c.paramCalls → p b = p a := fun a b hm =>
    hp.wires a b (hc ▸ List.mem_map.2 ⟨(a, b), hm, rfl⟩)
  have e1 := w .objectData .eqCalcObjects (by simp [Config.paramCalls])
  have e2 := w .objectData .panObjects (by simp [Config.paramCalls])
  have e3 := w .objectData .allradObjects (by simp [Config.paramCalls])
  refine ⟨?_, ?_, ?_, fun hf => ?_, ?_, fun hr => ?_⟩
  · rw [w .eqCalcGain .objectGain (by simp [Config.paramCalls]), hp.gain, e1]
  · rw [w .eqCalcEq .objectEq (by simp [Config.paramCalls]), hp.eq, e1]
  · rw [w .allradGainOut .vbapGain (by simp [Config.paramCalls]), hp.allrad, e3,
      w .panVbap .allradGainIn (by simp [Config.paramCalls]), hp.vbap, e2]
  · rw [w .panVbip .vbipGain (by simp [Config.paramCalls, hf]), hp.vbip, e2]
  · rw [w .panDiffuse .diffuseGain (by simp [Config.paramCalls]), hp.diffuse, e2]
  · exact w .objectData .reverbObjects (by simp [Config.paramCalls, hr])

section
variable {S : Type} [AddZeroClass S] {c : Config} {parts : Parts S} {v : Port → List S}

theorem wire {conns : List AConn} (hv : Running c conns parts v) (hc : conns = c.calls.flatMap (Call.conns c.width))
    {k : Call} (hk : k ∈ c.calls) {n : Nat} {i j : Nat} (h1 : (k.si c.width)[n]? = some i) (h2 : (k.ri c.width)[n]? = some j) :
    (v k.send)[i]? = (v k.recv)[j]? := by
  apply hv.wires
  rw [hc, pairs_flatMap]
  refine List.mem_flatMap.2 ⟨k, hk, ?_⟩
  unfold Call.pairs
  refine List.mem_of_getElem? (i := n) ?_
  rw [List.getElem?_zip_eq_some]
  simp [h1, h2]

theorem wire_whole {conns : List AConn} (hv : Running c conns parts v) (hc : conns = c.calls.flatMap (Call.conns c.width))
    (hf : ∀ k ∈ c.calls, k.fits c.width) {s r : Port} (hk : Call.whole s r ∈ c.calls) : v r = v s := by
  have hw : c.width s = c.width r := (hf _ hk).2.2.2 s r rfl
  apply List.ext_getElem?
  intro i
  by_cases hi : i < c.width s
  · refine (wire hv hc hk (n := i) ?_ ?_).symm <;> simp [Call.si, Call.ri, hi]
  · rw [List.getElem?_eq_none (by rw [hv.width]; omega), List.getElem?_eq_none (by rw [hv.width]; omega)]

theorem wire_part {conns : List AConn} (hv : Running c conns parts v) (hc : conns = c.calls.flatMap (Call.conns c.width))
    {s r : Port} {a b a' b' : Nat} (hk : Call.part s (channelRange a b) r (channelRange a' b') ∈ c.calls) {n : Nat}
    (h1 : n < b - a) (h2 : n < b' - a') : (v r)[a' + n]? = (v s)[a + n]? := by
  refine (wire hv hc hk (n := n) ?_ ?_).symm <;> simp [Call.si, Call.ri, channelRange, h1, h2]

/-- Two consecutive ranges. -/
theorem wire_two {conns : List AConn} (hv : Running c conns parts v) (hc : conns = c.calls.flatMap (Call.conns c.width))
    {s s' r : Port} {m n : Nat} (hk : Call.part s (channelRange 0 m) r (channelRange 0 m) ∈ c.calls)
    (hk' : Call.part s' (channelRange 0 n) r (channelRange m (m + n)) ∈ c.calls) (h1 : c.width s = m)
    (h2 : c.width s' = n) (h3 : c.width r = m + n) : v r = v s ++ v s' := by
  apply List.ext_getElem?
  intro i
  by_cases hi : i < m
  · rw [List.getElem?_append_left (by rw [hv.width]; omega)]
    have := wire_part hv hc hk (n := i) (by omega) (by omega)
    simpa using this
  · rw [List.getElem?_append_right (by rw [hv.width]; omega), hv.width, h1]
    by_cases hj : i - m < n
    · have := wire_part hv hc hk' (n := i - m) (by omega) (by omega)
      rw [show m + (i - m) = i by omega] at this
      simpa using this
    · rw [List.getElem?_eq_none (by rw [hv.width]; omega), List.getElem?_eq_none (by rw [hv.width]; omega)]

theorem adjust_signal {conns : List AConn} (hv : Running c conns parts v) (hc : conns = c.calls.flatMap (Call.conns c.width))
    (hf : ∀ k ∈ c.calls, k.fits c.width) (ht : c.tracking = false) : v .adjustOut = played c parts (v .audioIn) := by
  have w := fun s r => wire_whole hv hc hf (s := s) (r := r)
  have hobj : v .objectEqOut = objects parts (v .audioIn) := by
    rw [hv.objectEq, w .objectGainOut .objectEqIn (by simp [Config.calls, Config.calls1]), hv.objectGain,
      w .audioIn .objectGainIn (by simp [Config.calls, Config.calls1])]
    rfl
  have hdif : v .decorrelatorOut = parts.decorrelator (parts.diffuse (objects parts (v .audioIn))) := by
    rw [hv.decorrelator, w .diffuseOut .decorrelatorIn (by simp [Config.calls, Config.calls2]), hv.diffuse,
      w .objectEqOut .diffuseIn (by simp [Config.calls, Config.calls1]), hobj]
  have hin0 : v .mixIn0 = v .vbapOut := w .vbapOut .mixIn0 (by simp [Config.calls, Config.calls1])
  have hmix : v .mixOut = mixed c parts (v .audioIn) := by
    have hrev : c.reverb = true → v .reverbOut = parts.reverb (objects parts (v .audioIn)) := by
      intro hr
      rw [hv.reverb, w .objectEqOut .reverbIn (by simp [Config.calls, Config.calls2, hr]), hobj]
    cases hfd : c.freqDep with
    | false =>
      have hdir : v .vbapOut = direct c parts (v .audioIn) := by
        rw [hv.vbap, w .objectEqOut .vbapIn (by simp [Config.calls, Config.calls1, hfd]), hobj]
        simp [direct, hfd]
      have hin1 : v .mixIn1 = v .decorrelatorOut := w .decorrelatorOut .mixIn1 (by simp [Config.calls, Config.calls2, hfd])
      cases hr : c.reverb with
      | false =>
        have hm := hv.mix
        simp only [hfd, hr] at hm
        rw [hm, hin0, hin1, hdir, hdif]
        simp [mixed, hr]
      | true =>
        have hin2 : v .mixIn2 = v .reverbOut := w .reverbOut .mixIn2 (by simp [Config.calls, Config.calls2, hfd, hr])
        have hm := hv.mix
        simp only [hfd, hr] at hm
        rw [hm, hin0, hin1, hin2, hdir, hdif, hrev hr]
        simp [mixed, hr]
    | true =>
      have hbank : v .filterbankIn = objects parts (v .audioIn) ++ objects parts (v .audioIn) := by
        rw [wire_two hv hc (s := .objectEqOut) (s' := .objectEqOut) (m := c.nIn) (n := c.nIn)
          (by simp [Config.calls, Config.calls1, hfd])
          (by rw [← Nat.two_mul]; simp [Config.calls, Config.calls1, hfd]) rfl rfl (by simp [Config.width]; omega), hobj]
      have hlow : v .vbapIn = (v .filterbankOut).take c.nIn := by
        apply List.ext_getElem?
        intro i
        by_cases hi : i < c.nIn
        · have := wire_part hv hc (s := .filterbankOut) (r := .vbapIn) (a := 0) (b := c.nIn) (a' := 0) (b' := c.nIn) (n := i)
            (by simp [Config.calls, Config.calls1, hfd]) (by omega) (by omega)
          rw [List.getElem?_take_of_lt hi]
          simpa using this
        · rw [List.getElem?_eq_none (by rw [hv.width]; simpa [Config.width] using hi),
            List.getElem?_eq_none (by rw [List.length_take]; omega)]
      have hhigh : v .vbipIn = (v .filterbankOut).drop c.nIn := by
        apply List.ext_getElem?
        intro i
        rw [List.getElem?_drop]
        by_cases hi : i < c.nIn
        · have := wire_part hv hc (s := .filterbankOut) (r := .vbipIn) (a := c.nIn) (b := 2 * c.nIn) (a' := 0) (b' := c.nIn)
            (n := i) (by simp [Config.calls, Config.calls1, hfd]) (by omega) (by omega)
          simpa using this
        · rw [List.getElem?_eq_none (by rw [hv.width]; simpa [Config.width] using hi),
            List.getElem?_eq_none (by rw [hv.width]; simp only [Config.width]; omega)]
      have hdir : plus (v .vbapOut) (v .vbipOut) = direct c parts (v .audioIn) := by
        rw [hv.vbap, hv.vbip, hlow, hhigh, hv.filterbank, hbank]
        simp [direct, hfd]
      have hin1 : v .mixIn1 = v .vbipOut := w .vbipOut .mixIn1 (by simp [Config.calls, Config.calls1, hfd])
      have hin2 : v .mixIn2 = v .decorrelatorOut := w .decorrelatorOut .mixIn2 (by simp [Config.calls, Config.calls2, hfd])
      cases hr : c.reverb with
      | false =>
        have hm := hv.mix
        simp only [hfd, hr] at hm
        rw [hm, hin0, hin1, hin2, hdir, hdif]
        simp [mixed, hr]
      | true =>
        have hin3 : v .mixIn3 = v .reverbOut := w .reverbOut .mixIn3 (by simp [Config.calls, Config.calls2, hfd, hr])
        have hm := hv.mix
        simp only [hfd, hr] at hm
        rw [hm, hin0, hin1, hin2, hin3, hdir, hdif, hrev hr]
        simp [mixed, hr]
  have hsub : v .subwooferOut = parts.subwoofers (mixed c parts (v .audioIn)) := by
    rw [hv.subwoofers, w .mixOut .subwooferIn (by simp [Config.calls, Config.calls2, ht]), hmix]
  rw [hv.adjust]
  unfold played
  cases he : c.eqFilters with
  | none =>
    have heq : c.eq = false := by simp [Config.eq, he]
    rw [wire_two hv hc (s := .mixOut) (s' := .subwooferOut) (r := .adjustIn) (m := c.nL) (n := c.nS)
      (by simp [Config.calls, Config.calls2, heq, ht]) (by simp [Config.calls, Config.calls2, heq, ht]) rfl rfl rfl, hmix, hsub]
    simp
  | some n =>
    have heq : c.eq = true := by simp [Config.eq, he]
    rw [w .outputEqOut .adjustIn (by simp [Config.calls, Config.calls2, heq, ht]), hv.outputEq,
      wire_two hv hc (s := .mixOut) (s' := .subwooferOut) (r := .outputEqIn) (m := c.nL) (n := c.nS)
      (by simp [Config.calls, Config.calls2, heq, ht]) (by simp [Config.calls, Config.calls2, heq, ht]) rfl rfl rfl, hmix, hsub]
    simp

end

/-- **C59.** Whatever the contained components do: the running renderer sends the signal of each loudspeaker and each
subwoofer to its output channel (channel numbers start from one), and all other output channels are silent. The signals
are those of the signal flow described by `played`: object gains and equalisers, panning (with the crossover for
frequency-dependent panning) plus decorrelated diffuse part plus reverberation, subwoofer mix, output equalisation,
gain and delay adjustment. Partial: fails with tracking (`tracking_subwoofers_unconnected`). -/
theorem renderer_output_partial {S : Type} [AddZeroClass S] {c : Config} (ht : c.tracking = false) (hd : 0 < c.delays)
    (hn : c.nOut < 2 ^ 64) {conns : List AConn} (hc : audioConnections c = .ok conns) {parts : Parts S} {v : Port → List S}
    (hv : Running c conns parts v) :
    (∀ (k : Nat) (ch : UInt64), (c.lsp ++ c.subs)[k]? = some ch → ∃ y, (played c parts (v .audioIn))[k]? = some y ∧
      (v .audioOut)[ch.toNat - 1]? = some y) ∧
    (∀ i < c.nOut, (∀ ch ∈ c.lsp ++ c.subs, ch.toNat ≠ i + 1) → (v .audioOut)[i]? = some 0) := by
  have h : Valid c := by
    by_contra h
    rw [audioConnections_invalid h hn ht hd] at hc
    cases hc
  have hc' : conns = c.calls.flatMap (Call.conns c.width) := by
    rw [audioConnections_ok h ht hd] at hc
    injection hc with e
    exact e.symm
  have hf := calls_fits h ht
  rw [← adjust_signal hv hc' hf ht]
  constructor
  · intro k ch hk
    obtain ⟨hk1, hk2⟩ := List.getElem?_eq_some_iff.1 hk
    have hlt : k < c.nL + c.nS := by simpa [Config.nL, Config.nS] using hk1
    have hlen : k < (v .adjustOut).length := by rw [hv.width]; exact hlt
    refine ⟨_, List.getElem?_eq_getElem hlen, ?_⟩
    have hw := wire hv hc' (k := .part .adjustOut (channelRange 0 (c.nL + c.nS)) .audioOut ((c.lsp ++ c.subs).map chan))
      (by simp [Config.calls]) (n := k) (i := k) (j := chan ch)
      (by simp [Call.si, channelRange, hlt])
      (by rw [Call.ri, List.getElem?_map, hk]; rfl)
    rw [← List.getElem?_eq_getElem hlen]
    exact hw.symm
  · intro i hi hne
    have hm : i ∈ silent c := by
      refine List.mem_filter.2 ⟨List.mem_range.2 hi, ?_⟩
      simp only [decide_eq_true_eq]
      intro hmem
      obtain ⟨ch, hch, e⟩ := List.mem_map.1 hmem
      have := h.range ch hch
      unfold chan at e
      exact hne ch hch (by omega)
    obtain ⟨n, hnlt, hget⟩ := List.mem_iff_getElem.1 hm
    have htot := h.total
    have hnull : c.width .nullOut = 1 := by simp only [Config.width]; rw [if_neg (by omega)]
    have hw := wire hv hc' (k := .part .nullOut (List.replicate (c.nOut - (c.nL + c.nS)) 0) .audioOut (silent c))
      (by simp [Config.calls]) (n := n) (i := 0) (j := i)
      (by simp only [Call.si]; rw [List.getElem?_replicate, if_pos (by omega)])
      (by rw [Call.ri, List.getElem?_eq_getElem hnlt, hget])
    have h0 : 0 < (v .nullOut).length := by rw [hv.width, hnull]; omega
    have hz := hv.null _ (List.getElem_mem h0)
    have hw' : (v .nullOut)[0]? = (v .audioOut)[i]? := hw
    rw [← hw', List.getElem?_eq_getElem h0, hz]

/-! ## Where the property fails -/

/-- **C59 (negation, tracking).** With listener tracking the renderer never passes the connection check, so it cannot be
used: the listener position input of the HOA gain calculator (`hoa_allrad_gain_calculator.cpp:37`) is never connected. -/
theorem tracking_rejected {c : Config} (ht : c.tracking = true) {t : Comp} (h : construct c = .ok t) :
    checkConnectionIntegrity compareConfig t true = false := by
  unfold construct at h
  cases hc : audioConnections c with
  | throw e => rw [hc] at h; cases h
  | ub => rw [hc] at h; cases h
  | ok conns =>
    rw [hc, Outcome.ok_bind] at h
    injection h with h
    subst h
    rw [Bool.eq_false_iff]
    intro hcon
    have hw := (connectionCheck_iff_partial _ _ (distinct_tree c _ _)).1 hcon _ _ _ _ _ (.self _)
    rw [children_param] at hw
    obtain ⟨k, hk, e⟩ := hw.2.receive (c.pport .allradListener) (canReceiveP.2 ⟨.allradListener, rfl, by
      simp [Config.params, ht], rfl⟩)
    obtain ⟨ab, hm, rfl⟩ := List.mem_map.1 hk
    have e' : ab.2 = .allradListener := PName.id_inj.1 e
    revert hm
    obtain ⟨a, b⟩ := ab
    simp only at e'
    subst e'
    cases hf : c.freqDep <;> cases hr : c.reverb <;> simp [Config.paramCalls, ht, hf, hr]

/-- **C59 (negation, tracking and subwoofers).** With listener tracking and without output equalisation the subwoofers
have no signal: nothing is connected to their channels of the output adjustment. -/
theorem tracking_subwoofers_unconnected {c : Config} (ht : c.tracking = true) (he : c.eqFilters = none) (hd : 0 < c.delays)
    (hn : c.nOut < 2 ^ 64) {conns : List AConn} (hc : audioConnections c = .ok conns) {k : Nat} (hk : k < c.subs.length) :
    c.lsp.length + k < c.width .adjustIn ∧
    ((Flow.pairs conns).map Prod.snd).count (Port.adjustIn.id, c.lsp.length + k) = 0 := by
  have heq : c.eq = false := by simp [Config.eq, he]
  have hf2 := calls2_fits_tracking c heq
  have h : Valid c := by
    by_contra h
    rw [audioConnections_invalid' h hn hf2 hd] at hc
    cases hc
  rw [audioConnections_ok' h hf2 hd] at hc
  injection hc with hc
  subst hc
  refine ⟨by simp only [Config.width, Config.nL, Config.nS]; omega, ?_⟩
  have hf : ∀ k ∈ c.calls, k.fits c.width := by
    intro k hk
    simp only [Config.calls, List.mem_append, List.mem_cons, List.not_mem_nil, or_false] at hk
    rcases hk with (hk | hk) | rfl | rfl
    · exact calls1_fits c k hk
    · exact hf2 k hk
    · exact output_fits h
    · exact silent_fits h
  rw [pairs_flatMap, count_calls hf]
  cases hfd : c.freqDep <;> cases hr : c.reverb <;>
    simp [Config.calls, Config.calls1, Config.calls2, ht, heq, hfd, hr, Call.recv, Call.ri, count_channelRange, Config.nL]

/-- **C59 (negation, tracking, equalisation and subwoofers).** With listener tracking, output equalisation and
subwoofers the construction fails, although the configuration may be valid: the loudspeaker signals alone are connected to
the equaliser (`core_renderer.cpp:272`). -/
theorem tracking_equaliser_subwoofers_throws {c : Config} (ht : c.tracking = true) (he : c.eqFilters.isSome)
    (hs : c.subs ≠ []) (hd : 0 < c.delays) : construct c = .throw .invalidArgument := by
  have : audioConnections c = .throw .invalidArgument := by
    unfold audioConnections
    by_cases h1 : c.nL > c.filters
    · rw [if_pos h1]
    rw [if_neg h1]
    by_cases h2 : (c.eqFilters.any (fun n => c.nL + c.nS ≠ n)) = true
    · rw [if_pos h2]
    rw [if_neg h2, connectAll_fits (calls1_fits c), Outcome.ok_bind, if_neg (by omega),
      calls2_throw c ht he (List.length_pos_iff.2 hs)]
    rfl
  unfold construct
  rw [this]
  rfl

/-- **C59 (negation, no delays).** An array without any delay adjustments leads to undefined behaviour: the maximum of an
empty vector is read (`core_renderer.cpp:232-234`). -/
theorem no_delays_undefined {c : Config} (h : Valid c) (hd : c.delays = 0) : construct c = .ub := by
  have h1 : ¬ c.nL > c.filters := by have := h.filters; unfold Config.nL; omega
  have h2 : ¬ (c.eqFilters.any (fun n => c.nL + c.nS ≠ n)) = true := by
    cases he : c.eqFilters with
    | none => simp
    | some n => have := h.eq n he; simp [this, Config.nL, Config.nS]
  unfold construct audioConnections
  rw [if_neg h1, if_neg h2, connectAll_fits (calls1_fits c), Outcome.ok_bind, if_pos hd]
  rfl

/-! ## Examples -/

/-- Two loudspeakers on channels 3 and 1, a subwoofer on channel 4, five outputs, all features. -/
def demo (tracking : Bool) (eq : Option Nat) (delays : Nat) : Config :=
  ⟨1, 5, [3, 1], [4], 2, eq, delays, 1, tracking, true, true⟩

theorem demo_valid (tracking : Bool) (delays : Nat) : Valid (demo tracking (some 3) delays) :=
  ⟨by simp [demo], by simp [demo], by simp only [demo]; decide, by simp [demo]⟩

theorem demo_valid' (tracking : Bool) (delays : Nat) : Valid (demo tracking none delays) :=
  ⟨by simp [demo], by simp [demo], by simp only [demo]; decide, by simp [demo]⟩

example : ∃ t, construct (demo false (some 3) 3) = .ok t := (constructs_iff_valid_partial rfl (by decide) (by decide)).1.2 (demo_valid _ _)

/-- Channel number zero, a number beyond the last output and a duplicate are rejected. -/
example : construct ⟨1, 5, [0], [], 2, none, 1, 1, false, false, false⟩ = .throw .invalidArgument ∧
    construct ⟨1, 5, [6], [], 2, none, 1, 1, false, false, false⟩ = .throw .invalidArgument ∧
    construct ⟨1, 5, [3, 3], [], 2, none, 2, 1, false, false, false⟩ = .throw .invalidArgument := by
  refine ⟨(constructs_iff_valid_partial rfl (by decide) (by decide)).2 fun h => ?_,
    (constructs_iff_valid_partial rfl (by decide) (by decide)).2 fun h => ?_,
    (constructs_iff_valid_partial rfl (by decide) (by decide)).2 fun h => ?_⟩
  · have := h.range 0 (by simp); simp at this
  · have := h.range 6 (by simp); simp at this
  · have := h.distinct; simp at this

/-- With tracking and without equalisation the demo can be constructed (and is rejected by the check). -/
example : ∃ t, construct (demo true none 3) = .ok t ∧ checkConnectionIntegrity compareConfig t true = false := by
  have hc := audioConnections_ok' (demo_valid' true 3) (calls2_fits_tracking _ rfl) (by decide)
  have h : ∃ t, construct (demo true none 3) = .ok t := by
    unfold construct
    rw [hc, Outcome.ok_bind]
    exact ⟨_, rfl⟩
  obtain ⟨t, ht⟩ := h
  exact ⟨t, ht, tracking_rejected rfl ht⟩

/-- Components for the demo: gains of 2 and 3, a filterbank that keeps two thirds and one third, loudspeaker gains of
1 and 2, ... -/
def demoParts : Parts ℤ :=
  { objectGain := List.map (2 * ·), objectEq := List.map (3 * ·), filterbank := fun l => [2 * l.getD 0 0, l.getD 1 0]
    vbap := fun l => [l.sum, 0], vbip := fun l => [0, l.sum], diffuse := fun l => [l.sum, l.sum]
    decorrelator := List.map (10 * ·), reverb := fun l => [100 * l.sum, 0], subwoofers := fun l => [l.sum]
    outputEq := List.map (- ·), adjust := List.map (7 * ·) }

/-- The signals of the demo with input 1. -/
def demoSignals : Port → List ℤ
  | .audioIn | .objectGainIn => [1]
  | .objectGainOut | .objectEqIn => [2]
  | .objectEqOut | .diffuseIn | .reverbIn => [6]
  | .filterbankIn => [6, 6]
  | .filterbankOut => [12, 6]
  | .vbapIn => [12]
  | .vbipIn => [6]
  | .vbapOut | .mixIn0 => [12, 0]
  | .vbipOut | .mixIn1 => [0, 6]
  | .diffuseOut | .decorrelatorIn => [6, 6]
  | .decorrelatorOut | .mixIn2 => [60, 60]
  | .reverbOut | .mixIn3 => [600, 0]
  | .mixOut | .subwooferIn => [672, 66]
  | .subwooferOut => [738]
  | .outputEqIn => [672, 66, 738]
  | .outputEqOut | .adjustIn => [-672, -66, -738]
  | .adjustOut => [-4704, -462, -5166]
  | .nullOut => [0]
  | .audioOut => [-462, 0, -4704, -5166, 0]
  | .listenerIn | .listenerOut => [0, 0]

/-- The port with an address. -/
def ofId (n : Nat) : Port :=
  ([.audioIn, .audioOut, .objectGainIn, .objectGainOut, .objectEqIn, .objectEqOut, .adjustIn, .adjustOut, .vbapIn, .vbapOut,
    .vbipIn, .vbipOut, .diffuseIn, .diffuseOut, .decorrelatorIn, .decorrelatorOut, .mixIn0, .mixIn1, .mixIn2, .mixIn3, .mixOut,
    .subwooferIn, .subwooferOut, .nullOut, .listenerIn, .listenerOut, .outputEqIn, .outputEqOut, .filterbankIn, .filterbankOut,
    .reverbIn, .reverbOut] : List Port).getD n .audioIn

/-- The running demo. -/
theorem demo_running : Running (demo false (some 3) 3) ((demo false (some 3) 3).calls.flatMap (Call.conns (demo false (some 3) 3).width))
    demoParts demoSignals := by
  have hp : ∀ k ∈ Flow.pairs ((demo false (some 3) 3).calls.flatMap (Call.conns (demo false (some 3) 3).width)),
      (demoSignals (ofId k.1.1))[k.1.2]? = (demoSignals (ofId k.2.1))[k.2.2]? := by decide +kernel
  refine ⟨fun p => by cases p <;> rfl, fun s i r j h => ?_, rfl, rfl, rfl, rfl, rfl, rfl, rfl, rfl, rfl, rfl, rfl, rfl, ?_⟩
  · have := hp _ h
    have hs : ofId s.id = s := by cases s <;> rfl
    have hr : ofId r.id = r := by cases r <;> rfl
    simpa only [hs, hr] using this
  · simp [demoSignals]

example : played (demo false (some 3) 3) demoParts [1] = [-4704, -462, -5166] ∧
    (demoSignals .audioOut)[0]? = some (-462) ∧ (demoSignals .audioOut)[4]? = some 0 := by
  refine ⟨by decide +kernel, ?_, ?_⟩
  · obtain ⟨y, h1, h2⟩ := (renderer_output_partial rfl (by decide) (by decide)
      (audioConnections_ok (demo_valid false 3) rfl (by decide)) demo_running).1 1 1 rfl
    have h3 : y = -462 := by
      have : (played (demo false (some 3) 3) demoParts [1])[1]? = some (-462) := by decide +kernel
      exact Option.some.inj (h1.symm.trans this)
    rw [h3] at h2
    exact h2
  · exact (renderer_output_partial rfl (by decide) (by decide)
      (audioConnections_ok (demo_valid false 3) rfl (by decide)) demo_running).2 4 (by decide) (by decide)

/-- Parameter values for the demo. -/
example : ∃ (f : Calculators ℤ) (p : PName → ℤ),
    Controlled ((demo false (some 3) 3).paramCalls.map fun k => ⟨k.1.id, k.2.id⟩) f p ∧ p .objectGain = 14 ∧
      p .vbapGain = 28 := by
  refine ⟨⟨(2 * ·), (3 * ·), (3 * ·), (5 * ·), (6 * ·), fun a b => a + b⟩, fun
    | .objectData | .eqCalcObjects | .panObjects | .allradObjects | .reverbObjects => 7
    | .eqCalcGain | .objectGain => 14
    | .eqCalcEq | .objectEq => 21
    | .panVbap | .allradGainIn => 21
    | .panVbip | .vbipGain => 35
    | .panDiffuse | .diffuseGain => 42
    | .allradGainOut | .vbapGain => 28
    | _ => 0, ⟨?_, rfl, rfl, rfl, rfl, rfl, rfl⟩, rfl, rfl⟩
  intro a b h
  obtain ⟨⟨a', b'⟩, hm, e⟩ := List.mem_map.1 h
  injection e with e1 e2
  rw [← PName.id_inj.1 e1, ← PName.id_inj.1 e2]
  simp [demo, Config.paramCalls] at hm
  rcases hm with ⟨rfl, rfl⟩ | ⟨rfl, rfl⟩ | ⟨rfl, rfl⟩ | ⟨rfl, rfl⟩ | ⟨rfl, rfl⟩ | ⟨rfl, rfl⟩ | ⟨rfl, rfl⟩ |
    ⟨rfl, rfl⟩ | ⟨rfl, rfl⟩ | ⟨rfl, rfl⟩ <;> rfl

end Visr.CoreRenderer
