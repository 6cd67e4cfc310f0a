import Verif.ParamFlow.TreeLemmas

/-!
# Parameter values reach exactly the connected ports, for whole flows

From the component tree with its connections to the protocol objects.
-/

namespace Visr.ParamFlow
open Visr Visr.Flow Visr.Protocol

variable {α : Type} {env : Env α} {a : List APort} {own : List PPort} {ch : List Comp} {ac : List AConn} {pc : List PConn}

/-! ## Helpers -/

theorem sends_iff (flow : Comp) (s r : Nat) : Placeholder.SendsParam (pairs flow) s r ↔ Connects flow s r := mem_pairs flow r s

theorem chain_iff (flow : Comp) (r s : Nat) :
    Placeholder.Chain (isPlaceholder flow) (Placeholder.SendsParam (pairs flow)) r s ↔ Source flow r s := by
  unfold Source Placeholder.Chain
  simp only [Placeholder.ChainN.congr (sends_iff flow)]

theorem compositePortsAll_sub {x : Nat} (h : x ∈ compositePortsAll ch) : ∃ q ∈ allParams ch, q.id = x := by
  obtain ⟨c, hc, a', own', ch', ac', pc', hw, q, hq, rfl⟩ := compositePortsAll_iff ch x h
  exact ⟨q, (mem_allParams _ _).2 ⟨c, hc, allParam_within hw (by simp [allParam, hq])⟩, rfl⟩

/-- Ports of the flow itself are no ports inside it. -/
theorem own_not_inner (hd : Describes env (.composite a own ch ac pc)) {p q : PPort} (hp : p ∈ own) (hq : q ∈ allParams ch) :
    p.id ≠ q.id := by
  have h := hd.addresses
  simp only [allParam, List.map_append, List.nodup_append] at h
  exact h.2.2 _ (List.mem_map.2 ⟨p, hp, rfl⟩) _ (List.mem_map.2 ⟨q, hq, rfl⟩)

theorem own_real (hd : Describes env (.composite a own ch ac pc)) {p : PPort} (hp : p ∈ own) :
    Real (.composite a own ch ac pc) p.id := by
  simp only [Real, isPlaceholder, decide_eq_false_iff_not]
  intro h
  obtain ⟨q, hq, e⟩ := compositePortsAll_sub h
  exact own_not_inner hd hp hq e.symm

theorem atom_real (hd : Describes env (.composite a own ch ac pc)) {a' : List APort} {own' : List PPort}
    (hw : Within (.atom a' own') (.composite a own ch ac pc)) {p : PPort} (hp : p ∈ own') :
    Real (.composite a own ch ac pc) p.id := by
  have := atom_not_composite _ hd.addresses a' own' p hw hp
  simp only [compositePorts, List.mem_append, not_or] at this
  simp only [Real, isPlaceholder, decide_eq_false_iff_not]
  exact this.2

theorem inner_not_top (hd : Describes env (.composite a own ch ac pc)) {q : PPort} (hq : q ∈ allParams ch) :
    env.top q.id = false := by
  cases h : env.top q.id with
  | false => rfl
  | true =>
    obtain ⟨p, hp, e⟩ := List.mem_map.1 ((hd.top _).1 h)
    exact absurd e (own_not_inner hd hp hq)

/-- Ports of a contained component are inside the flow. -/
theorem child_inner {a' : List APort} {own' : List PPort} {ch' : List Comp} {ac' : List AConn} {pc' : List PConn}
    (hw : Within (.composite a' own' ch' ac' pc') (.composite a own ch ac pc)) {c : Comp} (hc : c ∈ ch') {q : PPort}
    (hq : q ∈ c.param) : q ∈ allParams ch := by
  cases hw with
  | self => exact (mem_allParams _ _).2 ⟨c, hc, param_subset c hq⟩
  | child hd hw =>
    refine (mem_allParams _ _).2 ⟨_, hd, allParam_within hw ?_⟩
    simp only [allParam, List.mem_append]
    exact Or.inr ((mem_allParams _ _).2 ⟨c, hc, param_subset c hq⟩)

/-- Ports of a composite inside the flow are placeholders. -/
theorem own_level {a' : List APort} {own' : List PPort} {ch' : List Comp} {ac' : List AConn} {pc' : List PConn}
    (hw : Within (.composite a' own' ch' ac' pc') (.composite a own ch ac pc)) {p : PPort} (hp : p ∈ own')
    (hr : Real (.composite a own ch ac pc) p.id) : p ∈ own := by
  cases hw with
  | self => exact hp
  | child hd hw =>
    simp only [Real, isPlaceholder, decide_eq_false_iff_not] at hr
    exact absurd ((mem_compositePortsAll _ _).2 ⟨_, hd, compositePorts_within hw hp⟩) hr

/-- Real receivers of connections are inputs of components or outputs of the flow. -/
theorem receiver_role (hd : Describes env (.composite a own ch ac pc))
    (hok : ∀ audio param children aconns pconns, Within (.composite audio param children aconns pconns) (.composite a own ch ac pc) →
      ParamOK env.cmp param (children.map Comp.param) pconns) {s r : Nat} (h : Connects (.composite a own ch ac pc) s r)
    (hr : Real (.composite a own ch ac pc) r) :
    if env.top r then (env.port r).input = false else (env.port r).input = true := by
  obtain ⟨a', own', ch', ac', pc', hw, k, hk, rfl, rfl⟩ := h
  obtain ⟨sp, rp, h1, h2, h3, h4, h5⟩ := (hok _ _ _ _ _ hw).known k hk
  rw [← h4] at hr ⊢
  rcases h3 with ⟨h3, h6⟩ | ⟨l, hl, h3, h6⟩
  · have ho := own_level hw h3 hr
    have : env.top rp.id = true := (hd.top _).2 (List.mem_map.2 ⟨rp, ho, rfl⟩)
    rw [this, hd.port rp (by simp [allParam, ho])]
    simpa using h6
  · obtain ⟨c, hc, rfl⟩ := List.mem_map.1 hl
    have hi := child_inner hw hc h3
    rw [inner_not_top hd hi, hd.port rp (by simp [allParam, hi])]
    simpa using h6

/-- Real senders of connections are outputs of components or inputs of the flow. -/
theorem sender_role (hd : Describes env (.composite a own ch ac pc))
    (hok : ∀ audio param children aconns pconns, Within (.composite audio param children aconns pconns) (.composite a own ch ac pc) →
      ParamOK env.cmp param (children.map Comp.param) pconns) {s r : Nat} (h : Connects (.composite a own ch ac pc) s r)
    (hr : Real (.composite a own ch ac pc) s) :
    if env.top s then (env.port s).input = true else (env.port s).input = false := by
  obtain ⟨a', own', ch', ac', pc', hw, k, hk, rfl, rfl⟩ := h
  obtain ⟨sp, rp, h1, h2, h3, h4, h5⟩ := (hok _ _ _ _ _ hw).known k hk
  rw [← h2] at hr ⊢
  rcases h1 with ⟨h3, h6⟩ | ⟨l, hl, h3, h6⟩
  · have ho := own_level hw h3 hr
    have : env.top sp.id = true := (hd.top _).2 (List.mem_map.2 ⟨sp, ho, rfl⟩)
    rw [this, hd.port sp (by simp [allParam, ho])]
    simpa using h6
  · obtain ⟨c, hc, rfl⟩ := List.mem_map.1 hl
    have hi := child_inner hw hc h3
    rw [inner_not_top hd hi, hd.port sp (by simp [allParam, hi])]
    simpa using h6

theorem chain_ends {flow : Comp} {n : Nat} {r s : Nat} (h : Placeholder.ChainN (isPlaceholder flow) (Connects flow) n r s) :
    (∃ p, Connects flow p r) ∧ (∃ x, Connects flow s x) ∧ Real flow s := by
  induction h with
  | direct h1 h2 => exact ⟨⟨_, h1⟩, ⟨_, h1⟩, h2⟩
  | through h1 h2 _ ih => exact ⟨⟨_, h1⟩, ih.2⟩

theorem nodup_iff_fst {l : List (Nat × Nat)} (hs : ∀ r s s', (r, s) ∈ l → (r, s') ∈ l → s = s') :
    (l.map Prod.fst).Nodup ↔ l.Nodup := by
  constructor
  · exact List.Nodup.of_map _
  · intro h
    refine h.map_on ?_
    rintro ⟨r, s⟩ h1 ⟨r', s'⟩ h2 (e : r = r')
    subst e
    rw [hs _ _ _ h1 h2]

/-- What the constructor of a flow does with well connected composites and chains with ends. -/
theorem construct_flat (hd : Describes env (.composite a own ch ac pc)) (hu : Placeholder.UniqueSenders (Connects (.composite a own ch ac pc)))
    (hok : ∀ audio param children aconns pconns, Within (.composite audio param children aconns pconns) (.composite a own ch ac pc) →
      ParamOK env.cmp param (children.map Comp.param) pconns)
    (hsrc : ∀ s r, Connects (.composite a own ch ac pc) s r → Real (.composite a own ch ac pc) r →
      ∃ s', Source (.composite a own ch ac pc) r s') :
    ∃ out : List (Nat × Nat), Roles env out ∧
      (∀ r s, (r, s) ∈ out ↔ Real (.composite a own ch ac pc) r ∧ Source (.composite a own ch ac pc) r s) ∧
      (out.Nodup ↔ ((registered (.composite a own ch ac pc)).filter fun r => !isPlaceholder (.composite a own ch ac pc) r).Nodup) ∧
      construct env (.composite a own ch ac pc) = match initialise env out with
        | .ub => .ub
        | .throw e => .throw e
        | .ok (st, ok) => if ok then .ok st else .throw .runtimeError := by
  have hu' : Placeholder.UniqueSenders (Placeholder.SendsParam (pairs (.composite a own ch ac pc))) := fun s s' x h h' =>
    hu s s' x ((sends_iff _ _ _).1 h) ((sends_iff _ _ _).1 h')
  obtain ⟨out, h1, h2, h3⟩ := (Placeholder.param_placeholders_resolved_partial
    (isPlaceholder (.composite a own ch ac pc)) (pairs (.composite a own ch ac pc)) hu').1 (fun s r h hr => by
      obtain ⟨s', h'⟩ := hsrc s r ((sends_iff _ _ _).1 h) hr
      exact ⟨s', (chain_iff _ _ _).2 h'⟩)
  have h4 : ∀ r s, (r, s) ∈ out ↔ Real (.composite a own ch ac pc) r ∧ Source (.composite a own ch ac pc) r s := by
    intro r s
    rw [h3 s r, chain_iff]
    rfl
  refine ⟨out, ?_, h4, ?_, ?_⟩
  · intro r s h
    obtain ⟨hr, n, hn⟩ := (h4 r s).1 h
    obtain ⟨⟨p, hp⟩, ⟨x, hx⟩, hs⟩ := chain_ends hn
    exact ⟨receiver_role hd hok hp hr, sender_role hd hok hx hs⟩
  · rw [← nodup_iff_fst, h2, pairs_registered]
    intro r s s' h h'
    obtain ⟨_, n, hn⟩ := (h4 r s).1 h
    obtain ⟨_, m, hm⟩ := (h4 r s').1 h'
    exact (hn.unique hu hm).2
  · have hc := (checkParam_iff env.cmp _ hd.levels).2 hok
    have hf := fillTree_ok env.cmp _ hd.levels hok
    unfold construct
    simp only [hc, hf, h1, Bool.not_true, Bool.false_eq_true, if_false]
    cases initialise env out <;> rfl

/-! ## Theorems -/

/-- **C91 (accepted flows; partial: every port has at most one sender).** A composite flow whose ports have different
addresses is constructed iff it is usable. Missing: flows in which composite ports have several senders (see
`sender_lost`). -/
theorem flow_accepted_iff_partial (hn : DistinctNames env) (hd : Describes env (.composite a own ch ac pc))
    (hu : Placeholder.UniqueSenders (Connects (.composite a own ch ac pc))) :
    (∃ st, construct env (.composite a own ch ac pc) = .ok st) ↔ Usable env (.composite a own ch ac pc) := by
  constructor
  · rintro ⟨st, h⟩
    have hok := (checkParam_iff env.cmp _ hd.levels).1 (by
      by_contra hc
      rw [Bool.not_eq_true] at hc
      unfold construct at h
      simp only [hc, Bool.not_false, if_true] at h
      cases h)
    have hsrc : ∀ s r, Connects (.composite a own ch ac pc) s r → Real (.composite a own ch ac pc) r →
        ∃ s', Source (.composite a own ch ac pc) r s' := by
      by_contra hc
      simp only [not_forall] at hc
      obtain ⟨s, r, h1, h2, h3⟩ := hc
      have hu' : Placeholder.UniqueSenders (Placeholder.SendsParam (pairs (.composite a own ch ac pc))) := fun s s' x h h' =>
        hu s s' x ((sends_iff _ _ _).1 h) ((sends_iff _ _ _).1 h')
      obtain ⟨e, he⟩ := (Placeholder.param_placeholders_resolved_partial
        (isPlaceholder (.composite a own ch ac pc)) (pairs (.composite a own ch ac pc)) hu').2
          ⟨s, r, (sends_iff _ _ _).2 h1, h2, by simpa only [chain_iff] using h3⟩
      have hc := (checkParam_iff env.cmp _ hd.levels).2 hok
      have hf := fillTree_ok env.cmp _ hd.levels hok
      unfold construct at h
      simp only [hc, hf, he, Bool.not_true, Bool.false_eq_true, if_false] at h
      cases h
    obtain ⟨out, hro, hm, hnd, hcon⟩ := construct_flat hd hu hok hsrc
    rw [hcon] at h
    have hacc : Acceptable env out := by
      refine (accepted_iff hn hro).1.1 ?_
      cases hi : initialise env out with
      | ub => simp [hi] at h
      | throw e => simp [hi] at h
      | ok v =>
        obtain ⟨st', ok⟩ := v
        cases ok with
        | true => exact ⟨st', rfl⟩
        | false => simp [hi] at h
    exact ⟨hok, hsrc, hnd.1 hacc.once, fun r s h1 h2 => hacc.fits r s ((hm r s).2 ⟨h1, h2⟩),
      fun r s h1 h2 => hacc.creatable r s ((hm r s).2 ⟨h1, h2⟩),
      fun r r' s h1 h2 h3 h4 => hacc.oneToOne r r' s ((hm r s).2 ⟨h1, h3⟩) ((hm r' s).2 ⟨h2, h4⟩)⟩
  · intro hus
    obtain ⟨out, hro, hm, hnd, hcon⟩ := construct_flat hd hu hus.levels hus.sources
    have hacc : Acceptable env out := by
      refine ⟨hnd.2 hus.once, ?_, fun r s h => ?_, fun r s h => ?_, fun r r' s h h' => ?_⟩
      · intro r s s' h h'
        obtain ⟨_, n, hn'⟩ := (hm r s).1 h
        obtain ⟨_, m, hm'⟩ := (hm r s').1 h'
        exact (hn'.unique hu hm').2
      · exact hus.fits r s ((hm r s).1 h).1 ((hm r s).1 h).2
      · exact hus.creatable r s ((hm r s).1 h).1 ((hm r s).1 h).2
      · exact hus.oneToOne r r' s ((hm r s).1 h).1 ((hm r' s).1 h').1 ((hm r s).1 h).2 ((hm r' s).1 h').2
    obtain ⟨st, hst, _⟩ := implemented hn hro hacc
    exact ⟨st, by rw [hcon, hst]; rfl⟩

/-- **C91 (whole flows; partial: every port has at most one sender).** In a constructed flow, a sending port and a receiving
port are attached to the same protocol object iff both are real and the sender is the source of the receiver; and the external
endpoints are those of the ports of the flow. -/
theorem flow_attached_partial (hn : DistinctNames env) (hd : Describes env (.composite a own ch ac pc))
    (hu : Placeholder.UniqueSenders (Connects (.composite a own ch ac pc))) {st : State α}
    (h : construct env (.composite a own ch ac pc) = .ok st) :
    (∀ r s, (∃ i ∈ st.protocols, i.outPtr s = true ∧ i.inPtr r = true) ↔
      Real (.composite a own ch ac pc) r ∧ Source (.composite a own ch ac pc) r s) ∧
    ∃ out, Implements env out st ∧
      ∀ r s, (r, s) ∈ out ↔ Real (.composite a own ch ac pc) r ∧ Source (.composite a own ch ac pc) r s := by
  have hus := (flow_accepted_iff_partial hn hd hu).1 ⟨st, h⟩
  obtain ⟨out, hro, hm, hnd, hcon⟩ := construct_flat hd hu hus.levels hus.sources
  rw [hcon] at h
  have hi : initialise env out = .ok (st, true) := by
    cases hi : initialise env out with
    | ub => simp [hi] at h
    | throw e => simp [hi] at h
    | ok v =>
      obtain ⟨st', ok⟩ := v
      cases ok with
      | true => simp only [hi, if_true, Outcome.ok.injEq] at h; rw [h]
      | false => simp [hi] at h
  refine ⟨fun r s => by rw [attached_iff hn hro hi, hm], out, ?_, hm⟩
  obtain ⟨st', h1, h2⟩ := implemented hn hro ((accepted_iff hn hro).1.1 ⟨st, hi⟩)
  rw [hi] at h1
  cases h1
  exact h2

/-- A placeholder that receives also sends. -/
theorem placeholder_continues (hd : Describes env (.composite a own ch ac pc))
    (hok : ∀ audio param children aconns pconns, Within (.composite audio param children aconns pconns) (.composite a own ch ac pc) →
      ParamOK env.cmp param (children.map Comp.param) pconns) {s q : Nat} (h : Connects (.composite a own ch ac pc) s q)
    (hq : isPlaceholder (.composite a own ch ac pc) q = true) : ∃ q', Connects (.composite a own ch ac pc) q q' := by
  obtain ⟨a', own', ch', ac', pc', hw, k, hk, rfl, rfl⟩ := h
  obtain ⟨sp, rp, h1, h2, h3, h4, h5⟩ := (hok _ _ _ _ _ hw).known k hk
  rw [← h4] at hq ⊢
  have nreal : ¬ Real (.composite a own ch ac pc) rp.id := by simp [Real, hq]
  rcases h3 with ⟨h3, h6⟩ | ⟨l, hl, h3, h6⟩
  · rcases parent_of hw with e | ⟨a2, own2, ch2, ac2, pc2, hw2, hm⟩
    · cases e
      exact absurd (own_real hd h3) nreal
    · obtain ⟨k', hk', e'⟩ := (hok _ _ _ _ _ hw2).send rp (Or.inr ⟨own', List.mem_map.2 ⟨_, hm, rfl⟩, h3, h6⟩)
      exact ⟨k'.receiver, a2, own2, ch2, ac2, pc2, hw2, k', hk', e', rfl⟩
  · obtain ⟨c, hc, rfl⟩ := List.mem_map.1 hl
    have hwc : Within c (.composite a own ch ac pc) := Within.trans (.child hc (.self _)) hw
    cases c with
    | atom a2 own2 => exact absurd (atom_real hd hwc h3) nreal
    | composite a2 own2 ch2 ac2 pc2 =>
      obtain ⟨k', hk', e'⟩ := (hok _ _ _ _ _ hwc).send rp (Or.inl ⟨h3, h6⟩)
      exact ⟨k'.receiver, a2, own2, ch2, ac2, pc2, hwc, k', hk', e', rfl⟩

theorem connects_registered {flow : Comp} {s r : Nat} (h : Connects flow s r) : r ∈ registered flow := by
  rw [← pairs_registered]
  exact List.mem_map.2 ⟨(r, s), (mem_pairs _ _ _).2 h, rfl⟩

/-- **C91 (no port is left out; partial: every port has at most one sender).** In a constructed flow every real sender is
attached to a protocol object with at least one receiver, and every real receiver to one with a sender. -/
theorem all_attached_partial (hn : DistinctNames env) (hd : Describes env (.composite a own ch ac pc))
    (hu : Placeholder.UniqueSenders (Connects (.composite a own ch ac pc))) {st : State α}
    (h : construct env (.composite a own ch ac pc) = .ok st) (p : Nat) :
    (RealSender (.composite a own ch ac pc) p → ∃ r, ∃ i ∈ st.protocols, i.outPtr p = true ∧ i.inPtr r = true) ∧
    (RealReceiver (.composite a own ch ac pc) p → ∃ s, ∃ i ∈ st.protocols, i.outPtr s = true ∧ i.inPtr p = true) := by
  have hus := (flow_accepted_iff_partial hn hd hu).1 ⟨st, h⟩
  have hat := (flow_attached_partial hn hd hu h).1
  have hok := hus.levels
  constructor
  · intro hp
    suffices hs : ∃ r, Real (.composite a own ch ac pc) r ∧ Source (.composite a own ch ac pc) r p by
      obtain ⟨r, hr⟩ := hs
      exact ⟨r, (hat r p).2 hr⟩
    have hstart : Real (.composite a own ch ac pc) p ∧ ∃ q, Connects (.composite a own ch ac pc) p q := by
      rcases hp with ⟨a', own', hw, q, hq, rfl, hin⟩ | ⟨q, hq, rfl, hin⟩
      · refine ⟨atom_real hd hw hq, ?_⟩
        rcases parent_of hw with e | ⟨a2, own2, ch2, ac2, pc2, hw2, hm⟩
        · cases e
        · obtain ⟨k, hk, e⟩ := (hok _ _ _ _ _ hw2).send q (Or.inr ⟨own', List.mem_map.2 ⟨_, hm, rfl⟩, hq, hin⟩)
          exact ⟨k.receiver, a2, own2, ch2, ac2, pc2, hw2, k, hk, e, rfl⟩
      · refine ⟨own_real hd hq, ?_⟩
        obtain ⟨k, hk, e⟩ := (hok _ _ _ _ _ (.self _)).send q (Or.inl ⟨hq, hin⟩)
        exact ⟨k.receiver, _, _, _, _, _, .self _, k, hk, e, rfl⟩
    obtain ⟨hreal, q0, hq0⟩ := hstart
    have step : ∀ n, (∃ r, Real (.composite a own ch ac pc) r ∧ Source (.composite a own ch ac pc) r p) ∨
        ∃ x, isPlaceholder (.composite a own ch ac pc) x = true ∧
          Placeholder.ChainN (isPlaceholder (.composite a own ch ac pc)) (Connects (.composite a own ch ac pc)) n x p := by
      intro n
      induction n with
      | zero =>
        cases hq : isPlaceholder (.composite a own ch ac pc) q0 with
        | false => exact Or.inl ⟨q0, hq, 0, .direct hq0 hreal⟩
        | true => exact Or.inr ⟨q0, hq, .direct hq0 hreal⟩
      | succ n ih =>
        rcases ih with ih | ⟨x, hx, hc⟩
        · exact Or.inl ih
        · obtain ⟨⟨y, hy⟩, _⟩ := chain_ends hc
          obtain ⟨x', hx'⟩ := placeholder_continues hd hok hy hx
          cases hq : isPlaceholder (.composite a own ch ac pc) x' with
          | false => exact Or.inl ⟨x', hq, n + 1, .through hx' hx hc⟩
          | true => exact Or.inr ⟨x', hq, .through hx' hx hc⟩
    rcases step (registered (.composite a own ch ac pc)).length with h | ⟨x, _, hc⟩
    · exact h
    · obtain ⟨l, l1, l2, l3, _⟩ := hc.receivers hu
      have := (l1.subperm (l₂ := registered (.composite a own ch ac pc)) fun t ht => by
        obtain ⟨u, hu'⟩ := l3 t ht
        exact connects_registered hu').length_le
      omega
  · intro hp
    suffices hs : ∃ s, Real (.composite a own ch ac pc) p ∧ Source (.composite a own ch ac pc) p s by
      obtain ⟨s, hr⟩ := hs
      exact ⟨s, (hat p s).2 hr⟩
    have hstart : Real (.composite a own ch ac pc) p ∧ ∃ q, Connects (.composite a own ch ac pc) q p := by
      rcases hp with ⟨a', own', hw, q, hq, rfl, hin⟩ | ⟨q, hq, rfl, hin⟩
      · refine ⟨atom_real hd hw hq, ?_⟩
        rcases parent_of hw with e | ⟨a2, own2, ch2, ac2, pc2, hw2, hm⟩
        · cases e
        · obtain ⟨k, hk, e⟩ := (hok _ _ _ _ _ hw2).receive q (Or.inr ⟨own', List.mem_map.2 ⟨_, hm, rfl⟩, hq, hin⟩)
          exact ⟨k.sender, a2, own2, ch2, ac2, pc2, hw2, k, hk, rfl, e⟩
      · refine ⟨own_real hd hq, ?_⟩
        obtain ⟨k, hk, e⟩ := (hok _ _ _ _ _ (.self _)).receive q (Or.inl ⟨hq, hin⟩)
        exact ⟨k.sender, _, _, _, _, _, .self _, k, hk, rfl, e⟩
    obtain ⟨hreal, q0, hq0⟩ := hstart
    obtain ⟨s, hs⟩ := hus.sources q0 p hq0 hreal
    exact ⟨s, hreal, hs⟩

/-! ## Examples -/

/-- A flow with an input `0` and an output `1`, which contains a composite with ports `20` and `21`, which contains an atomic
component with an input `5` and an output `6`. -/
def treeFlow : Comp :=
  .composite [] [⟨0, true, 0, 7, 3⟩, ⟨1, false, 0, 7, 3⟩]
    [.composite [] [⟨20, true, 0, 7, 3⟩, ⟨21, false, 0, 7, 3⟩] [.atom [] [⟨5, true, 0, 7, 3⟩, ⟨6, false, 0, 7, 3⟩]] []
      [⟨20, 5⟩, ⟨6, 21⟩]]
    [] [⟨0, 20⟩, ⟨21, 1⟩]

/-- The description of the ports of a flow. -/
def treeEnv (flow : Comp) : Env Nat :=
  { port := fun x => ((allParam flow).find? fun p => p.id = x).getD ⟨x, true, 0, 0, 0⟩
    name := fun p => if p = 0 then "in" else "out"
    top := fun x => x ∈ flow.param.map PPort.id
    kind := fun k => if k = 0 then some .doubleBuffering else if k = 1 then some .messageQueue else none
    create := fun _ c => some c
    cmp := fun a b => some (a == b) }

theorem treeEnv_describes {flow : Comp} (h : ((allParam flow).map PPort.id).Nodup) (hl : DistinctAddresses flow) :
    Describes (treeEnv flow) flow := by
  refine ⟨h, hl, fun p hp => ?_, fun x => by simp [treeEnv]⟩
  have : ((allParam flow).find? fun q => q.id = p.id) = some p :=
    (find_port (id := PPort.id) fun p hp q hq e => List.inj_on_of_nodup_map h hp hq e).2 ⟨hp, rfl⟩
  simp only [treeEnv, this, Option.getD_some]

/-- The wiring of a constructed flow: senders and receivers of the protocol objects, and external endpoints. -/
def wiring (o : Outcome (State Nat)) : Option (List (List Nat × List Nat) × List (String × Nat) × List (String × Nat)) :=
  match o with
  | .ok st => some (st.protocols.map (fun i => ((List.range 30).filter i.outPtr, (List.range 30).filter i.inPtr)), st.receive, st.send)
  | _ => none

theorem tree_distinct : DistinctAddresses treeFlow := by
  intro a p ch ac pc hw
  unfold treeFlow at hw
  cases hw with
  | self => constructor <;> simp [DistinctPorts, Comp.audio, Comp.param]
  | child hc hw =>
    simp only [List.mem_singleton] at hc
    subst hc
    cases hw with
    | self => constructor <;> simp [DistinctPorts, Comp.audio, Comp.param]
    | child hc hw =>
      simp only [List.mem_singleton] at hc
      subst hc
      cases hw

theorem tree_describes : Describes (treeEnv treeFlow) treeFlow := treeEnv_describes (by decide) tree_distinct

theorem tree_names : DistinctNames (treeEnv treeFlow) := by
  intro p q hp hq h
  simp only [treeEnv, treeFlow, Comp.param, List.map_cons, List.map_nil, List.mem_cons, List.not_mem_nil, or_false,
    decide_eq_true_eq] at hp hq h
  rcases hp with rfl | rfl <;> rcases hq with rfl | rfl <;> simp_all

theorem tree_unique : Placeholder.UniqueSenders (Connects treeFlow) := by
  intro s s' x h h'
  rw [← mem_pairs] at h h'
  simp only [treeFlow, pairs, pairsAll, List.map_cons, List.map_nil, List.cons_append, List.nil_append, List.append_nil,
    List.mem_cons, Prod.mk.injEq, List.not_mem_nil, or_false] at h h'
  omega

/-- The hypotheses are met by a flow in which values pass through two ports of a composite. -/
example : wiring (construct (treeEnv treeFlow) treeFlow) = some ([([6], [1]), ([0], [5])], [("in", 0)], [("out", 1)]) := by
  rfl

example : Usable (treeEnv treeFlow) treeFlow :=
  (flow_accepted_iff_partial tree_names tree_describes tree_unique).1
    ⟨_, (show construct (treeEnv treeFlow) treeFlow = .ok _ from rfl)⟩

example : RealSender treeFlow 6 ∧ RealReceiver treeFlow 5 ∧ RealSender treeFlow 0 ∧ RealReceiver treeFlow 1 := by
  refine ⟨Or.inl ⟨[], [⟨5, true, 0, 7, 3⟩, ⟨6, false, 0, 7, 3⟩], .child (.head _) (.child (.head _) (.self _)), ⟨6, false, 0, 7, 3⟩, by simp⟩,
    Or.inl ⟨[], [⟨5, true, 0, 7, 3⟩, ⟨6, false, 0, 7, 3⟩], .child (.head _) (.child (.head _) (.self _)), ⟨5, true, 0, 7, 3⟩, by simp⟩,
    Or.inr ⟨⟨0, true, 0, 7, 3⟩, by simp [treeFlow, Comp.param]⟩, Or.inr ⟨⟨1, false, 0, 7, 3⟩, by simp [treeFlow, Comp.param]⟩⟩

/-! ## Where the property fails -/

/-- Two atomic components with the outputs `2` and `4`, connected to the input `20` of a composite, which passes it on to `5`;
the connections are `ks`. -/
def mergeFlow (ks : List PConn) : Comp :=
  .composite [] []
    [.atom [] [⟨2, false, 0, 7, 3⟩], .atom [] [⟨4, false, 0, 7, 3⟩],
      .composite [] [⟨20, true, 0, 7, 3⟩] [.atom [] [⟨5, true, 0, 7, 3⟩]] [] [⟨20, 5⟩]]
    [] ks

theorem merge_distinct (ks : List PConn) : DistinctAddresses (mergeFlow ks) := by
  intro a p ch ac pc hw
  unfold mergeFlow at hw
  cases hw with
  | self => constructor <;> simp [DistinctPorts, Comp.audio, Comp.param]
  | child hc hw =>
    simp only [List.mem_cons, List.not_mem_nil, or_false] at hc
    rcases hc with rfl | rfl | rfl
    · cases hw
    · cases hw
    · cases hw with
      | self => constructor <;> simp [DistinctPorts, Comp.audio, Comp.param]
      | child hc hw =>
        simp only [List.mem_singleton] at hc
        subst hc
        cases hw

/-- **C91 is false of the code for composite ports with several senders.** Two outputs are connected to one input of a
composite; the flow is constructed, but one of the outputs is not attached to anything. (Using that output dereferences a null
pointer.) The same two connections to the input of an atomic component are rejected. Which
of the outputs loses depends on the order of the connections. -/
theorem sender_lost :
    Describes (treeEnv (mergeFlow [⟨2, 20⟩, ⟨4, 20⟩])) (mergeFlow [⟨2, 20⟩, ⟨4, 20⟩]) ∧
    (∃ st, construct (treeEnv (mergeFlow [⟨2, 20⟩, ⟨4, 20⟩])) (mergeFlow [⟨2, 20⟩, ⟨4, 20⟩]) = .ok st ∧
      RealSender (mergeFlow [⟨2, 20⟩, ⟨4, 20⟩]) 4 ∧ Source (mergeFlow [⟨2, 20⟩, ⟨4, 20⟩]) 5 4 ∧
      ∀ i ∈ st.protocols, i.outPtr 4 = false) ∧
    construct (treeEnv (mergeFlow [⟨2, 5⟩, ⟨4, 5⟩])) (mergeFlow [⟨2, 5⟩, ⟨4, 5⟩]) = .throw .runtimeError := by
  refine ⟨treeEnv_describes (by decide) (merge_distinct _), ⟨_, rfl, ?_, ?_, ?_⟩, rfl⟩
  · exact Or.inl ⟨[], [⟨4, false, 0, 7, 3⟩], .child (by simp) (.self _), ⟨4, false, 0, 7, 3⟩, by simp⟩
  · refine ⟨1, .through (p := 20) ?_ rfl (.direct ?_ rfl)⟩
    · exact ⟨_, _, _, _, _, .child (.tail _ (.tail _ (.head _))) (.self _), ⟨20, 5⟩, by simp, rfl, rfl⟩
    · exact ⟨_, _, _, _, _, .self _, ⟨4, 20⟩, by simp, rfl, rfl⟩
  · intro i hi
    simp only [List.nil_append, List.mem_singleton] at hi
    subst hi
    rfl

/-- A connection to the input of an atomic component, registered twice, passes the check but the constructor fails with an
exception that is no `runtime_error`; registered twice to the input of a composite it is accepted. -/
theorem repeated_connection :
    (let f : Comp := .composite [] [] [.atom [] [⟨2, false, 0, 7, 3⟩], .atom [] [⟨5, true, 0, 7, 3⟩]] [] [⟨2, 5⟩, ⟨2, 5⟩]
     checkParam (treeEnv f).cmp f true = true ∧ construct (treeEnv f) f = .throw .logicError) ∧
    (let f : Comp := .composite [] [] [.atom [] [⟨2, false, 0, 7, 3⟩], .composite [] [⟨20, true, 0, 7, 3⟩]
        [.atom [] [⟨5, true, 0, 7, 3⟩]] [] [⟨20, 5⟩]] [] [⟨2, 20⟩, ⟨2, 20⟩]
     ∃ st, construct (treeEnv f) f = .ok st) :=
  ⟨⟨by decide +kernel, rfl⟩, _, rfl⟩

end Visr.ParamFlow
