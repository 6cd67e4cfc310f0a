import Verif.SignalFlows.Model
import Verif.ReverbRenderer.Lemmas
import Verif.CoreRenderer.Wiring

/-!
# Lemmas about the ready-made signal flows
-/

namespace Visr.SignalFlows
open Visr Visr.Flow Visr.Wiring
open Visr.CoreRenderer (PConfig compareConfig)
open Visr.ReverbRenderer (aport pport)

/-! ## Replacing components by others with the same ports -/

theorem canSend_congr {P : Type} {input : P → Bool} {own : List P} {a b : List (List P)}
    (h : ∀ p, p ∈ a.flatten ↔ p ∈ b.flatten) (p : P) : CanSend input own a p ↔ CanSend input own b p := by
  have := h p
  rw [List.mem_flatten, List.mem_flatten] at this
  unfold CanSend
  constructor
  · rintro (h1 | ⟨l, hl, hp, hi⟩)
    · exact Or.inl h1
    · obtain ⟨l', hl', hp'⟩ := this.1 ⟨l, hl, hp⟩
      exact Or.inr ⟨l', hl', hp', hi⟩
  · rintro (h1 | ⟨l, hl, hp, hi⟩)
    · exact Or.inl h1
    · obtain ⟨l', hl', hp'⟩ := this.2 ⟨l, hl, hp⟩
      exact Or.inr ⟨l', hl', hp', hi⟩

theorem canReceive_congr {P : Type} {input : P → Bool} {own : List P} {a b : List (List P)}
    (h : ∀ p, p ∈ a.flatten ↔ p ∈ b.flatten) (p : P) : CanReceive input own a p ↔ CanReceive input own b p := by
  have := canSend_congr (input := fun p => !input p) (own := own) h p
  unfold CanSend at this
  unfold CanReceive
  simpa using this

theorem audioOK_congr {own : List APort} {a b : List (List APort)} {conns : List AConn}
    (h : ∀ p, p ∈ a.flatten ↔ p ∈ b.flatten) (ha : AudioOK own a conns) : AudioOK own b conns := by
  refine ⟨fun k hk => ?_, fun r hr => ha.receive r ((canReceive_congr h r).2 hr),
    fun s hs => ha.send s ((canSend_congr h s).2 hs)⟩
  obtain ⟨s, r, hs, e1, hr, e2, h3⟩ := ha.known k hk
  exact ⟨s, r, (canSend_congr h s).1 hs, e1, (canReceive_congr h r).1 hr, e2, h3⟩

theorem paramOK_congr {cmp : Nat → Nat → Option Bool} {own : List PPort} {a b : List (List PPort)} {conns : List PConn}
    (h : ∀ p, p ∈ a.flatten ↔ p ∈ b.flatten) (ha : ParamOK cmp own a conns) : ParamOK cmp own b conns := by
  refine ⟨fun k hk => ?_, fun r hr => ha.receive r ((canReceive_congr h r).2 hr),
    fun s hs => ha.send s ((canSend_congr h s).2 hs)⟩
  obtain ⟨s, r, hs, e1, hr, e2, h3⟩ := ha.known k hk
  exact ⟨s, r, (canSend_congr h s).1 hs, e1, (canReceive_congr h r).1 hr, e2, h3⟩

/-! ## The core renderer with reverberation -/

section
variable (c : CoreRenderer.Config) (r : ReverbRenderer.Config)

/-- The components of the core renderer. -/
def kids : List Comp :=
  ((c.components.filter fun l => l ≠ [.reverbIn, .reverbOut]).map fun l => Comp.atom (l.map c.port) []) ++
    ((c.params.filter fun l => l ≠ [.reverbObjects]).map fun l => Comp.atom [] (l.map c.pport)) ++ [ReverbRenderer.tree r]

def fullTree : Comp :=
  .composite ([CoreRenderer.Port.audioIn, .audioOut].map c.port) (c.ownParams.map c.pport) (kids c r)
    (c.calls.flatMap (CoreRenderer.Call.conns c.width)) (c.paramCalls.map fun k => ⟨k.1.id, k.2.id⟩)

theorem kids_audio : (kids c r).map Comp.audio =
    ((c.components.filter fun l => l ≠ [.reverbIn, .reverbOut]).map fun l => l.map c.port) ++
      ((c.params.filter fun l => l ≠ [.reverbObjects]).map fun _ => []) ++ [[aport 30 true r.nIn, aport 31 false r.nL]] := by
  unfold kids
  simp only [List.map_append, List.map_map, Function.comp_def, Comp.audio, List.map_cons, List.map_nil]
  rfl

theorem kids_param : (kids c r).map Comp.param =
    ((c.components.filter fun l => l ≠ [.reverbIn, .reverbOut]).map fun _ => []) ++
      ((c.params.filter fun l => l ≠ [.reverbObjects]).map fun l => l.map c.pport) ++ [[pport 24 true 0 0 .empty]] := by
  unfold kids
  simp only [List.map_append, List.map_map, Function.comp_def, Comp.param, List.map_cons, List.map_nil]
  rfl

theorem mem_filter_ne {A B : Type} [DecidableEq A] {l : List A} {x : A} (hx : x ∈ l) (f : A → List B) (p : B) :
    p ∈ (l.map f).flatten ↔ p ∈ ((l.filter fun y => y ≠ x).map f).flatten ∨ p ∈ f x := by
  simp only [List.mem_flatten, List.mem_map, exists_exists_and_eq_and, List.mem_filter, decide_eq_true_eq]
  constructor
  · rintro ⟨k, hk, hp⟩
    by_cases e : k = x
    · exact Or.inr (e ▸ hp)
    · exact Or.inl ⟨k, ⟨hk, e⟩, hp⟩
  · rintro (⟨k, ⟨hk, _⟩, hp⟩ | hp)
    · exact ⟨k, hk, hp⟩
    · exact ⟨x, hx, hp⟩

theorem full_audio (hr : c.reverb = true) (h1 : r.nIn = c.nIn) (h2 : r.nL = c.nL) (p : APort) :
    p ∈ ((c.components.map fun l => l.map c.port) ++ c.params.map fun _ => ([] : List APort)).flatten ↔
      p ∈ ((kids c r).map Comp.audio).flatten := by
  have hm : [CoreRenderer.Port.reverbIn, .reverbOut] ∈ c.components := by
    simp [CoreRenderer.Config.components, hr]
  rw [kids_audio, List.flatten_append, List.mem_append, mem_filter_ne hm]
  rw [List.flatten_append, List.flatten_append, List.mem_append, List.mem_append, h1, h2]
  have e : List.map c.port [CoreRenderer.Port.reverbIn, .reverbOut] = [aport 30 true c.nIn, aport 31 false c.nL] := rfl
  rw [e]
  simp

theorem full_param (hr : c.reverb = true) (p : PPort) :
    p ∈ ((c.components.map fun _ => ([] : List PPort)) ++ c.params.map fun l => l.map c.pport).flatten ↔
      p ∈ ((kids c r).map Comp.param).flatten := by
  have hm : [CoreRenderer.PName.reverbObjects] ∈ c.params := by
    simp [CoreRenderer.Config.params, hr]
  rw [kids_param, List.flatten_append, List.mem_append, mem_filter_ne hm]
  rw [List.flatten_append, List.flatten_append, List.mem_append, List.mem_append]
  have e : List.map c.pport [CoreRenderer.PName.reverbObjects] = [pport 24 true 0 0 .empty] := rfl
  rw [e]
  simp

theorem kids_cases {k : Comp} (hk : k ∈ kids c r) : (∃ a p, k = .atom a p) ∨ k = ReverbRenderer.tree r := by
  unfold kids at hk
  simp only [List.mem_append, List.mem_map, List.mem_singleton] at hk
  rcases hk with (⟨_, _, rfl⟩ | ⟨_, _, rfl⟩) | rfl
  · exact Or.inl ⟨_, _, rfl⟩
  · exact Or.inl ⟨_, _, rfl⟩
  · exact Or.inr rfl

theorem full_wellConnected (hv : CoreRenderer.Valid c) (ht : c.tracking = false) (hr : c.reverb = true)
    (h1 : r.nIn = c.nIn) (h2 : r.nL = c.nL) : WellConnected compareConfig (fullTree c r) := by
  refine wellConnected_composite (audioOK_congr (full_audio c r hr h1 h2) (CoreRenderer.audio_ok hv ht))
    (paramOK_congr (full_param c r hr) (CoreRenderer.param_ok ht)) fun k hk => ?_
  rcases kids_cases c r hk with ⟨a, p, rfl⟩ | rfl
  · exact wellConnected_atom
  · exact ReverbRenderer.wellConnected r

theorem full_distinct (hr : c.reverb = true) (conns : List AConn) (pconns : List PConn) :
    DistinctAddresses (.composite ([CoreRenderer.Port.audioIn, .audioOut].map c.port) (c.ownParams.map c.pport) (kids c r)
      conns pconns) := by
  refine distinct_composite ?_ ?_ fun k hk => ?_
  · rw [kids_audio]
    unfold DistinctPorts
    have e : (([CoreRenderer.Port.audioIn, .audioOut].map c.port ++
        (((c.components.filter fun l => l ≠ [CoreRenderer.Port.reverbIn, .reverbOut]).map fun l => l.map c.port) ++
          ((c.params.filter fun l => l ≠ [CoreRenderer.PName.reverbObjects]).map fun _ => ([] : List APort)) ++
          [[aport 30 true r.nIn, aport 31 false r.nL]]).flatten).map APort.id) =
        (([CoreRenderer.Port.audioIn, .audioOut] ++
          (c.components.filter fun l => l ≠ [CoreRenderer.Port.reverbIn, .reverbOut]).flatten ++ [CoreRenderer.Port.reverbIn, .reverbOut]).map
            CoreRenderer.Port.id) := by
      have h0 : ((c.params.filter fun l => l ≠ [CoreRenderer.PName.reverbObjects]).map
        fun _ => ([] : List APort)).flatten = [] := by simp
      rw [List.flatten_append, List.flatten_append, h0, List.append_nil, ← List.map_flatten, List.map_append,
        List.map_append, List.map_append, List.map_append, List.map_map, List.map_map, List.append_assoc]
      rfl
    rw [e]
    cases hf : c.freqDep <;> cases he : c.eq <;> cases ht : c.tracking <;>
    · simp only [CoreRenderer.Config.components, hf, hr, he, ht, if_true, Bool.false_eq_true, if_false]
      decide
  · rw [kids_param]
    unfold DistinctPorts
    have e : ((c.ownParams.map c.pport ++
        (((c.components.filter fun l => l ≠ [CoreRenderer.Port.reverbIn, .reverbOut]).map fun _ => ([] : List PPort)) ++
          ((c.params.filter fun l => l ≠ [CoreRenderer.PName.reverbObjects]).map fun l => l.map c.pport) ++
          [[pport 24 true 0 0 .empty]]).flatten).map PPort.id) =
        ((c.ownParams ++
          (c.params.filter fun l => l ≠ [CoreRenderer.PName.reverbObjects]).flatten ++ [CoreRenderer.PName.reverbObjects]).map CoreRenderer.PName.id) := by
      have h0 : ((c.components.filter fun l => l ≠ [CoreRenderer.Port.reverbIn, .reverbOut]).map
        fun _ => ([] : List PPort)).flatten = [] := by simp
      rw [List.flatten_append, List.flatten_append, h0, List.nil_append, ← List.map_flatten, List.map_append,
        List.map_append, List.map_append, List.map_append, List.map_map, List.map_map, List.append_assoc]
      rfl
    rw [e]
    cases hf : c.freqDep <;> cases ht : c.tracking <;>
    · simp only [CoreRenderer.Config.params, CoreRenderer.Config.ownParams, hf, hr, ht, if_true, Bool.false_eq_true,
        if_false]
      decide
  · rcases kids_cases c r hk with ⟨a, p, rfl⟩ | rfl
    · exact distinct_atom
    · exact ReverbRenderer.distinct r

end

/-- Whatever the configuration, the constructed core renderer has these ports, and no two ports of one level have the
same address. -/
theorem core_shape {c : CoreRenderer.Config} {reverb : Reverb} {t : Comp} (h : core c reverb = .ok t) :
    DistinctAddresses t ∧ ∃ kids conns pconns, t =
      .composite ([CoreRenderer.Port.audioIn, .audioOut].map c.port) (c.ownParams.map c.pport) kids conns pconns := by
  cases reverb with
  | none =>
    simp only [core] at h
    unfold CoreRenderer.construct at h
    cases hc : CoreRenderer.audioConnections { c with reverb := false } with
    | throw e => rw [hc] at h; cases h
    | ub => rw [hc] at h; cases h
    | ok conns =>
      rw [hc, Outcome.ok_bind] at h
      injection h with h
      subst h
      exact ⟨CoreRenderer.distinct_tree _ _ _, _, _, _, rfl⟩
  | some r =>
    simp only [core, coreWithReverb] at h
    cases hc : CoreRenderer.audioConnections { c with reverb := true } with
    | throw e => unfold CoreRenderer.construct at h; rw [hc] at h; cases h
    | ub => unfold CoreRenderer.construct at h; rw [hc] at h; cases h
    | ok conns =>
      unfold CoreRenderer.construct at h
      rw [hc, Outcome.ok_bind] at h
      simp only at h
      cases hr : ReverbRenderer.construct
        ⟨c.nIn, CoreRenderer.Config.nL { c with reverb := true }, r.1, r.2.1, r.2.2⟩ with
      | throw e => rw [hr] at h; cases h
      | ub => rw [hr] at h; cases h
      | ok rt =>
        rw [hr, Outcome.ok_bind] at h
        injection h with h
        subst h
        unfold ReverbRenderer.construct at hr
        split at hr
        · cases hr
        · rw [ReverbRenderer.build_ok] at hr
          injection hr with hr
          subst hr
          exact ⟨full_distinct { c with reverb := true } _ rfl _ _, _, _, _, rfl⟩

theorem valid_reverb {c : CoreRenderer.Config} (h : CoreRenderer.Valid c) (b : Bool) :
    CoreRenderer.Valid { c with reverb := b } := ⟨h.filters, h.eq, h.distinct, h.range⟩

theorem core_ok {c : CoreRenderer.Config} (hv : CoreRenderer.Valid c) (ht : c.tracking = false) (hd : 0 < c.delays)
    {reverb : Reverb} (hr : ∀ r, reverb = some r → ∀ n, r.2.2 = some n → c.lsp.length ≤ n) :
    ∃ t, core c reverb = .ok t ∧ WellConnected compareConfig t := by
  cases reverb with
  | none =>
    refine ⟨_, CoreRenderer.construct_ok (valid_reverb hv false) ht hd, ?_⟩
    refine wellConnected_composite (kids := _) ?_ ?_ fun k hk => ?_
    · rw [CoreRenderer.children_audio]; exact CoreRenderer.audio_ok (valid_reverb hv false) ht
    · rw [CoreRenderer.children_param]; exact CoreRenderer.param_ok ht
    · obtain ⟨a, p, rfl⟩ := CoreRenderer.atoms _ k hk
      exact wellConnected_atom
  | some r =>
    simp only [core, coreWithReverb]
    rw [CoreRenderer.construct_ok (valid_reverb hv true) ht hd]
    unfold CoreRenderer.tree
    simp only
    have hrev : ReverbRenderer.construct
        ⟨c.nIn, CoreRenderer.Config.nL { c with reverb := true }, r.1, r.2.1, r.2.2⟩ =
        .ok (ReverbRenderer.tree ⟨c.nIn, CoreRenderer.Config.nL { c with reverb := true }, r.1, r.2.1, r.2.2⟩) := by
      unfold ReverbRenderer.construct
      rw [if_neg, ReverbRenderer.build_ok]
      cases hf : r.2.2 with
      | none => simp
      | some n =>
        have := hr r rfl n hf
        intro hb
        have hb' : n < c.lsp.length := of_decide_eq_true hb
        omega
    rw [hrev, Outcome.ok_bind]
    exact ⟨_, rfl, full_wellConnected { c with reverb := true } _ (valid_reverb hv true) ht rfl rfl rfl⟩

theorem corePart_comp {c : CoreRenderer.Config} {kids : List Comp} {conns : List AConn} {pconns : List PConn} :
    (corePart c (.composite ([CoreRenderer.Port.audioIn, .audioOut].map c.port) (c.ownParams.map c.pport) kids conns
      pconns)).comp = .composite ([CoreRenderer.Port.audioIn, .audioOut].map c.port) (c.ownParams.map c.pport) kids conns
      pconns := by
  unfold corePart Part.comp CoreRenderer.Config.ownParams
  cases c.tracking <;> rfl

/-! ## Links made by name -/

/-- The table entry of a connection made by name: also without channels. -/
def named (l : Link) : AConn := ⟨l.s.id, l.si, l.r.id, l.ri⟩

theorem pairs_named (ls : List Link) : Flow.pairs (ls.map named) = ls.flatMap Link.pairs := by
  unfold Flow.pairs
  rw [List.flatMap_map]
  rfl

theorem audioOK_of_named {own : List APort} {kids : List (List APort)} {ls : List Link}
    (hs : ∀ l ∈ ls, CanSend APort.input own kids l.s) (hr : ∀ l ∈ ls, CanReceive APort.input own kids l.r)
    (hf : ∀ l ∈ ls, l.Fits)
    (h1 : ∀ r, CanReceive APort.input own kids r → ∀ i < r.width,
      (ls.map fun l => if l.r.id = r.id then l.ri.count i else 0).sum = 1)
    (h2 : ∀ s, CanSend APort.input own kids s → ∀ i < s.width, ∃ l ∈ ls, l.s.id = s.id ∧ i ∈ l.si) :
    AudioOK own kids (ls.map named) := by
  refine ⟨fun k hk => ?_, fun r hr' i hi => ?_, fun s hs' i hi => ?_⟩
  · obtain ⟨l, hl, rfl⟩ := List.mem_map.1 hk
    exact ⟨l.s, l.r, hs l hl, rfl, hr l hl, rfl, hf l hl⟩
  · rw [pairs_named, count_links hf]
    exact h1 r hr' i hi
  · rw [pairs_named]
    exact (mem_sends hf s.id i).2 (h2 s hs' i hi)

end Visr.SignalFlows
