import Verif.CoreRenderer.Lemmas

/-!
# The wiring of the renderer is complete: lemmas
-/

namespace Visr.CoreRenderer
open Visr Visr.Flow

/-- The component tree of a valid configuration. -/
def tree (c : Config) : Comp :=
  .composite ([Port.audioIn, Port.audioOut].map c.port) (c.ownParams.map c.pport)
    ((c.components.map fun l => .atom (l.map c.port) []) ++ c.params.map fun l => .atom [] (l.map c.pport))
    (c.calls.flatMap (Call.conns c.width)) (c.paramCalls.map fun k => ⟨k.1.id, k.2.id⟩)

theorem construct_ok {c : Config} (h : Valid c) (ht : c.tracking = false) (hd : 0 < c.delays) :
    construct c = .ok (tree c) := by
  unfold construct
  rw [audioConnections_ok h ht hd, Outcome.ok_bind]
  rfl

/-! ## Ports -/

theorem children_audio (c : Config) : (((c.components.map fun l => Comp.atom (l.map c.port) []) ++
    c.params.map fun l => Comp.atom [] (l.map c.pport)).map Comp.audio) =
      (c.components.map fun l => l.map c.port) ++ c.params.map fun _ => [] := by
  simp [Function.comp_def, Comp.audio]

theorem children_param (c : Config) : (((c.components.map fun l => Comp.atom (l.map c.port) []) ++
    c.params.map fun l => Comp.atom [] (l.map c.pport)).map Comp.param) =
      (c.components.map fun _ => []) ++ c.params.map fun l => l.map c.pport := by
  simp [Function.comp_def, Comp.param]

theorem canReceive {c : Config} {p : APort} (h : CanReceive APort.input ([Port.audioIn, Port.audioOut].map c.port)
    ((c.components.map fun l => l.map c.port) ++ c.params.map fun _ => []) p) :
    ∃ q, p = c.port q ∧ (q = .audioOut ∨ (q ∈ c.components.flatten ∧ q.input = true)) := by
  rcases h with ⟨hm, hi⟩ | ⟨l, hl, hm, hi⟩
  · simp only [List.map_cons, List.map_nil, List.mem_cons, List.not_mem_nil, or_false] at hm
    rcases hm with rfl | rfl
    · cases hi
    · exact ⟨_, rfl, Or.inl rfl⟩
  · rw [List.mem_append, List.mem_map, List.mem_map] at hl
    rcases hl with ⟨k, hk, rfl⟩ | ⟨k, hk, rfl⟩
    · obtain ⟨q, hq, rfl⟩ := List.mem_map.1 hm
      exact ⟨q, rfl, Or.inr ⟨List.mem_flatten.2 ⟨k, hk, hq⟩, hi⟩⟩
    · cases hm

theorem canSend {c : Config} {p : APort} (h : CanSend APort.input ([Port.audioIn, Port.audioOut].map c.port)
    ((c.components.map fun l => l.map c.port) ++ c.params.map fun _ => []) p) :
    ∃ q, p = c.port q ∧ (q = .audioIn ∨ (q ∈ c.components.flatten ∧ q.input = false)) := by
  rcases h with ⟨hm, hi⟩ | ⟨l, hl, hm, hi⟩
  · simp only [List.map_cons, List.map_nil, List.mem_cons, List.not_mem_nil, or_false] at hm
    rcases hm with rfl | rfl
    · exact ⟨_, rfl, Or.inl rfl⟩
    · cases hi
  · rw [List.mem_append, List.mem_map, List.mem_map] at hl
    rcases hl with ⟨k, hk, rfl⟩ | ⟨k, hk, rfl⟩
    · obtain ⟨q, hq, rfl⟩ := List.mem_map.1 hm
      exact ⟨q, rfl, Or.inr ⟨List.mem_flatten.2 ⟨k, hk, hq⟩, hi⟩⟩
    · cases hm

theorem canReceive_of {c : Config} {q : Port} (h : q = .audioOut ∨ (q ∈ c.components.flatten ∧ q.input = true)) :
    CanReceive APort.input ([Port.audioIn, Port.audioOut].map c.port)
      ((c.components.map fun l => l.map c.port) ++ c.params.map fun _ => []) (c.port q) := by
  rcases h with rfl | ⟨hm, hi⟩
  · exact Or.inl ⟨by simp, rfl⟩
  · obtain ⟨l, hl, hq⟩ := List.mem_flatten.1 hm
    exact Or.inr ⟨l.map c.port, List.mem_append.2 (Or.inl (List.mem_map.2 ⟨l, hl, rfl⟩)), List.mem_map.2 ⟨q, hq, rfl⟩, hi⟩

theorem canSend_of {c : Config} {q : Port} (h : q = .audioIn ∨ (q ∈ c.components.flatten ∧ q.input = false)) :
    CanSend APort.input ([Port.audioIn, Port.audioOut].map c.port)
      ((c.components.map fun l => l.map c.port) ++ c.params.map fun _ => []) (c.port q) := by
  rcases h with rfl | ⟨hm, hi⟩
  · exact Or.inl ⟨by simp, rfl⟩
  · obtain ⟨l, hl, hq⟩ := List.mem_flatten.1 hm
    exact Or.inr ⟨l.map c.port, List.mem_append.2 (Or.inl (List.mem_map.2 ⟨l, hl, rfl⟩)), List.mem_map.2 ⟨q, hq, rfl⟩, hi⟩

/-- The ends of every connection are ports of the right kind. -/
theorem calls_ports {c : Config} (ht : c.tracking = false) : ∀ k ∈ c.calls,
    (k.send = .audioIn ∨ (k.send ∈ c.components.flatten ∧ k.send.input = false)) ∧
    (k.recv = .audioOut ∨ (k.recv ∈ c.components.flatten ∧ k.recv.input = true)) := by
  intro k hk
  cases hf : c.freqDep <;> cases hr : c.reverb <;> cases he : c.eq <;>
  · simp only [Config.calls, Config.calls1, Config.calls2, hf, hr, he, ht, if_true, Bool.false_eq_true, if_false,
      List.mem_append, List.mem_cons, List.not_mem_nil, or_false, or_assoc, false_or] at hk
    simp only [Config.components, hf, hr, he, ht, if_true, Bool.false_eq_true, if_false]
    rcases hk with rfl | rfl | rfl | rfl | rfl | rfl | rfl | rfl | rfl | rfl | rfl | rfl | rfl | rfl | rfl | rfl | rfl |
      rfl | rfl <;> simp only [Call.send, Call.recv] <;> decide

theorem count_active {c : Config} (h : Valid c) {i : Nat} (hi : i < c.nOut) :
    ((c.lsp ++ c.subs).map chan).count i + (silent c).count i = 1 := by
  by_cases hm : i ∈ (c.lsp ++ c.subs).map chan
  · rw [List.count_eq_one_of_mem h.nodup hm, List.count_eq_zero_of_not_mem]
    unfold silent
    rw [List.mem_filter]
    simp only [decide_eq_true_eq]
    tauto
  · rw [List.count_eq_zero_of_not_mem hm, List.count_eq_one_of_mem (l := silent c) (List.nodup_range.filter _)]
    exact List.mem_filter.2 ⟨List.mem_range.2 hi, by simpa only [decide_eq_true_eq] using hm⟩

/-- Every receive channel has exactly one source. -/
theorem calls_receive {c : Config} (h : Valid c) (ht : c.tracking = false) {q : Port}
    (hq : q = .audioOut ∨ (q ∈ c.components.flatten ∧ q.input = true)) {i : Nat} (hi : i < c.width q) :
    (c.calls.map fun k => if k.recv = q then (k.ri c.width).count i else 0).sum = 1 := by
  have ha := count_active h (i := i)
  simp only [List.map_append] at ha
  revert hi
  cases hf : c.freqDep <;> cases hr : c.reverb <;> cases he : c.eq <;>
  · simp only [Config.components, hf, hr, he, ht, if_true, Bool.false_eq_true, if_false] at hq
    cases q <;> first | (exact absurd hq (by decide)) | skip
    all_goals
      intro hi
      simp only [Config.calls, Config.calls1, Config.calls2, hf, hr, he, ht, if_true, Bool.false_eq_true, if_false,
        List.map_append, List.map_cons, List.map_nil, List.sum_append, List.sum_cons, List.sum_nil, Call.recv, Call.ri,
        reduceCtorEq, count_range, count_channelRange, Config.width] at hi ⊢
      first
      | (simp only [hi, if_true]; done)
      | (have := ha hi; omega)
      | (split <;> split <;> omega)
      | (split <;> omega)
      | omega

/-- Every send channel is used. -/
theorem calls_send {c : Config} (h : Valid c) (ht : c.tracking = false) {q : Port}
    (hq : q = .audioIn ∨ (q ∈ c.components.flatten ∧ q.input = false)) {i : Nat} (hi : i < c.width q) :
    ∃ k ∈ c.calls, k.send = q ∧ i ∈ k.si c.width := by
  have hw := h.total
  revert hi
  cases hf : c.freqDep <;> cases hr : c.reverb <;> cases he : c.eq <;>
  · simp only [Config.components, hf, hr, he, ht, if_true, Bool.false_eq_true, if_false] at hq
    cases q <;> first | (exact absurd hq (by decide)) | skip
    all_goals
      intro hi
      simp only [Config.calls, Config.calls1, Config.calls2, hf, hr, he, ht, if_true, Bool.false_eq_true, if_false,
        List.mem_append, List.mem_cons, List.not_mem_nil, or_false, or_assoc, or_and_right, exists_or, exists_eq_left,
        Call.send, Call.si, List.mem_range, mem_channelRange, List.mem_replicate, reduceCtorEq, false_and, true_and,
        false_or, or_false, Config.width] at hi ⊢
      first
      | assumption
      | omega
      | (split at hi <;> omega)

theorem distinct_audio (c : Config) : DistinctPorts APort.id ([Port.audioIn, Port.audioOut].map c.port)
    ((c.components.map fun l => l.map c.port) ++ c.params.map fun _ => []) := by
  have h0 : ((c.params.map fun _ => ([] : List APort)).flatten) = [] := by simp
  have : (([Port.audioIn, Port.audioOut].map c.port) ++
      ((c.components.map fun l => l.map c.port) ++ c.params.map fun _ => ([] : List APort)).flatten).map APort.id =
      ([Port.audioIn, Port.audioOut] ++ c.components.flatten).map Port.id := by
    rw [List.flatten_append, h0, List.append_nil, ← List.map_flatten, ← List.map_append, List.map_map]
    rfl
  unfold DistinctPorts
  rw [this]
  cases hf : c.freqDep <;> cases hr : c.reverb <;> cases he : c.eq <;> cases ht : c.tracking <;>
  · simp only [Config.components, hf, hr, he, ht, if_true, Bool.false_eq_true, if_false]
    decide

theorem audio_ok {c : Config} (h : Valid c) (ht : c.tracking = false) :
    AudioOK ([Port.audioIn, Port.audioOut].map c.port)
      ((c.components.map fun l => l.map c.port) ++ c.params.map fun _ => []) (c.calls.flatMap (Call.conns c.width)) := by
  have hf := calls_fits h ht
  refine ⟨fun k hk => ?_, fun r hr i hi => ?_, fun s hs i hi => ?_⟩
  · obtain ⟨k', hk', hm⟩ := List.mem_flatMap.1 hk
    unfold Call.conns at hm
    split at hm
    · cases hm
    · rw [List.mem_singleton] at hm
      subst hm
      have hp := calls_ports ht k' hk'
      have hfk := hf k' hk'
      exact ⟨c.port k'.send, c.port k'.recv, canSend_of hp.1, rfl, canReceive_of hp.2, rfl, hfk.1, hfk.2.1, hfk.2.2.1⟩
  · obtain ⟨q, rfl, hq⟩ := canReceive hr
    rw [pairs_flatMap]
    show List.count (q.id, i) _ = 1
    rw [count_calls hf]
    exact calls_receive h ht hq hi
  · obtain ⟨q, rfl, hq⟩ := canSend hs
    rw [pairs_flatMap]
    exact (mem_sends hf q i).2 (calls_send h ht hq hi)

/-! ## Parameters -/

theorem distinct_param (c : Config) : DistinctPorts PPort.id (c.ownParams.map c.pport)
    ((c.components.map fun _ => []) ++ c.params.map fun l => l.map c.pport) := by
  have h0 : ((c.components.map fun _ => ([] : List PPort)).flatten) = [] := by simp
  have : ((c.ownParams.map c.pport) ++
      ((c.components.map fun _ => ([] : List PPort)) ++ c.params.map fun l => l.map c.pport).flatten).map PPort.id =
      (c.ownParams ++ c.params.flatten).map PName.id := by
    rw [List.flatten_append, h0, List.nil_append, ← List.map_flatten, ← List.map_append, List.map_map]
    rfl
  unfold DistinctPorts
  rw [this]
  cases hf : c.freqDep <;> cases hr : c.reverb <;> cases ht : c.tracking <;>
  · simp only [Config.params, Config.ownParams, hf, hr, ht, if_true, Bool.false_eq_true, if_false]
    decide

theorem canReceiveP {c : Config} {p : PPort} : CanReceive PPort.input (c.ownParams.map c.pport)
    ((c.components.map fun _ => []) ++ c.params.map fun l => l.map c.pport) p ↔
    ∃ q, p = c.pport q ∧ q ∈ c.params.flatten ∧ q.input = true := by
  constructor
  · rintro (⟨hm, hi⟩ | ⟨l, hl, hm, hi⟩)
    · obtain ⟨q, hq, rfl⟩ := List.mem_map.1 hm
      have : q.input = true := by
        unfold Config.ownParams at hq
        split at hq <;> simp only [List.mem_cons, List.not_mem_nil, or_false] at hq
        · rcases hq with rfl | rfl <;> rfl
        · subst hq; rfl
      exact absurd (this.symm.trans hi) (by decide)
    · rw [List.mem_append, List.mem_map, List.mem_map] at hl
      rcases hl with ⟨k, hk, rfl⟩ | ⟨k, hk, rfl⟩
      · cases hm
      · obtain ⟨q, hq, rfl⟩ := List.mem_map.1 hm
        exact ⟨q, rfl, List.mem_flatten.2 ⟨k, hk, hq⟩, hi⟩
  · rintro ⟨q, rfl, hm, hi⟩
    obtain ⟨l, hl, hq⟩ := List.mem_flatten.1 hm
    exact Or.inr ⟨l.map c.pport, List.mem_append.2 (Or.inr (List.mem_map.2 ⟨l, hl, rfl⟩)), List.mem_map.2 ⟨q, hq, rfl⟩, hi⟩

theorem canSendP {c : Config} {p : PPort} : CanSend PPort.input (c.ownParams.map c.pport)
    ((c.components.map fun _ => []) ++ c.params.map fun l => l.map c.pport) p ↔
    ∃ q, p = c.pport q ∧ ((q ∈ c.ownParams ∧ q.input = true) ∨ (q ∈ c.params.flatten ∧ q.input = false)) := by
  constructor
  · rintro (⟨hm, hi⟩ | ⟨l, hl, hm, hi⟩)
    · obtain ⟨q, hq, rfl⟩ := List.mem_map.1 hm
      exact ⟨q, rfl, Or.inl ⟨hq, hi⟩⟩
    · rw [List.mem_append, List.mem_map, List.mem_map] at hl
      rcases hl with ⟨k, hk, rfl⟩ | ⟨k, hk, rfl⟩
      · cases hm
      · obtain ⟨q, hq, rfl⟩ := List.mem_map.1 hm
        exact ⟨q, rfl, Or.inr ⟨List.mem_flatten.2 ⟨k, hk, hq⟩, hi⟩⟩
  · rintro ⟨q, rfl, ⟨hq, hi⟩ | ⟨hm, hi⟩⟩
    · exact Or.inl ⟨List.mem_map.2 ⟨q, hq, rfl⟩, hi⟩
    · obtain ⟨l, hl, hq⟩ := List.mem_flatten.1 hm
      exact Or.inr ⟨l.map c.pport, List.mem_append.2 (Or.inr (List.mem_map.2 ⟨l, hl, rfl⟩)), List.mem_map.2 ⟨q, hq, rfl⟩, hi⟩

theorem matches_of {c : Config} {a b : PName} (h1 : a.protocol = b.protocol) (h2 : a.type = b.type)
    (h3 : c.pconfig a = c.pconfig b) : Matches compareConfig (c.pport a) (c.pport b) := by
  refine ⟨h1, h2, ?_⟩
  unfold Config.pport
  rw [h3]
  simp [compareConfig]

theorem param_ok {c : Config} (ht : c.tracking = false) :
    ParamOK compareConfig (c.ownParams.map c.pport)
      ((c.components.map fun _ => []) ++ c.params.map fun l => l.map c.pport)
      (c.paramCalls.map fun k => ⟨k.1.id, k.2.id⟩) := by
  refine ⟨fun k hk => ?_, fun r hr => ?_, fun s hs => ?_⟩
  · obtain ⟨ab, hm, rfl⟩ := List.mem_map.1 hk
    refine ⟨c.pport ab.1, c.pport ab.2, canSendP.2 ⟨ab.1, rfl, ?_⟩, rfl, canReceiveP.2 ⟨ab.2, rfl, ?_⟩, rfl, ?_⟩
    all_goals
      cases hf : c.freqDep <;> cases hr : c.reverb <;>
      · simp only [Config.paramCalls, hf, hr, ht, if_true, Bool.false_eq_true, if_false, List.mem_append, List.mem_cons,
          List.not_mem_nil, or_false, or_assoc] at hm
        try simp only [Config.params, Config.ownParams, hf, hr, ht, if_true, Bool.false_eq_true, if_false]
        rcases hm with rfl | rfl | rfl | rfl | rfl | rfl | rfl | rfl | rfl | rfl <;> first | decide | exact matches_of rfl rfl rfl
  · obtain ⟨q, rfl, hm, hi⟩ := canReceiveP.1 hr
    suffices h : ∃ a, (a, q) ∈ c.paramCalls by
      obtain ⟨a, ha⟩ := h
      exact ⟨_, List.mem_map.2 ⟨_, ha, rfl⟩, rfl⟩
    cases hf : c.freqDep <;> cases hv : c.reverb <;>
    · simp only [Config.params, hf, hv, ht, if_true, Bool.false_eq_true, if_false] at hm
      simp only [Config.paramCalls, hf, hv, ht, if_true, Bool.false_eq_true, if_false]
      cases q <;> first | (exact absurd hm (by decide)) | (exact absurd hi (by decide)) | simp
  · obtain ⟨q, rfl, hq⟩ := canSendP.1 hs
    suffices h : ∃ b, (q, b) ∈ c.paramCalls by
      obtain ⟨b, hb⟩ := h
      exact ⟨_, List.mem_map.2 ⟨_, hb, rfl⟩, rfl⟩
    cases hf : c.freqDep <;> cases hv : c.reverb <;>
    · simp only [Config.params, Config.ownParams, hf, hv, ht, if_true, Bool.false_eq_true, if_false] at hq
      simp only [Config.paramCalls, hf, hv, ht, if_true, Bool.false_eq_true, if_false]
      cases q <;> first | (exact absurd hq (by decide)) | simp

/-! ## The tree -/

theorem within_tree {own : List APort} {param : List PPort} {a : List Comp} {ac : List AConn} {pc : List PConn}
    (ha : ∀ x ∈ a, ∃ l m, x = Comp.atom l m) {o p ch ac' pc'}
    (h : Within (.composite o p ch ac' pc') (.composite own param a ac pc)) :
    Comp.composite o p ch ac' pc' = .composite own param a ac pc := by
  cases h with
  | self => rfl
  | child hd hw =>
    obtain ⟨l, m, rfl⟩ := ha _ hd
    cases hw

theorem atoms (c : Config) : ∀ x ∈ ((c.components.map fun l => Comp.atom (l.map c.port) []) ++
    c.params.map fun l => Comp.atom [] (l.map c.pport)), ∃ l m, x = Comp.atom l m := by
  intro x hx
  rw [List.mem_append, List.mem_map, List.mem_map] at hx
  rcases hx with ⟨l, _, rfl⟩ | ⟨l, _, rfl⟩ <;> exact ⟨_, _, rfl⟩

theorem distinct_tree (c : Config) (conns : List AConn) (pconns : List PConn) :
    DistinctAddresses (.composite ([Port.audioIn, Port.audioOut].map c.port) (c.ownParams.map c.pport)
      ((c.components.map fun l => .atom (l.map c.port) []) ++ c.params.map fun l => .atom [] (l.map c.pport))
      conns pconns) := by
  intro o p ch ac pc hin
  have e := within_tree (atoms c) hin
  injection e with e1 e2 e3 e4 e5
  subst e1 e2 e3 e4 e5
  rw [children_audio, children_param]
  exact ⟨distinct_audio c, distinct_param c⟩

end Visr.CoreRenderer
