import Verif.ParamFlow.Components

/-!
# Parameter values reach exactly the connected ports

For the connections between real ports (after the resolution of composite ports, C24), given as pairs (receiver, sender).
-/

namespace Visr.ParamFlow
open Visr Visr.Flow Visr.Protocol

variable {α : Type}

/-- **C91 (accepted connections).** Acceptable connections are accepted, and then every sender has its own protocol object
of its protocol and parameter type, to which exactly the ports connected to it are attached as receivers; the connected ports
of the flow itself are accessible under their names. -/
theorem implemented {env : Env α} (hn : DistinctNames env) {conns : List (Nat × Nat)} (hro : Roles env conns)
    (ha : Acceptable env conns) : ∃ st, initialise env conns = .ok (st, true) ∧ Implements env conns st := by
  have hP : ∀ k ∈ conns, receives env k.1 = true ∧ ¬ receives env k.2 = true := fun k hk => by
    have := roles_receives hro (r := k.1) (s := k.2) hk
    simp [this.1, this.2]
  obtain ⟨g, hg⟩ := (build_succeeds conns ⟨[], []⟩ (fun p => receives env p = true) hP (by simp)).2 ⟨ha.once, by simp⟩
  have hv := (build_ok _ _ _ hg).2.1 (by simp)
  have hnd := connected_nodup env g hv
  -- every component is good, with its sender
  have hshape := fun c hc => component_shape hro ha.single (env := env) hg (c := c) hc
  have hne : ∀ c ∈ g.connected env, c.receivers ≠ [] := fun c hc => component_receivers_ne hro hg hc
  obtain ⟨ss, hss⟩ : ∃ ss, List.Forall₂ (fun c s => (∃ r, (r, s) ∈ conns) ∧ c.senders = [s] ∧ ReceiversOf conns s c.receivers)
      (g.connected env) ss := by
    generalize g.connected env = cs at hshape
    induction cs with
    | nil => exact ⟨[], .nil⟩
    | cons c cs ih =>
      obtain ⟨s, hs⟩ := hshape c (by simp)
      obtain ⟨ss, hss⟩ := ih fun c hc => hshape c (by simp [hc])
      exact ⟨s :: ss, .cons hs hss⟩
  have hgood : List.Forall₂ (Good env) (g.connected env) ss := by
    refine hss.imp ?_
    rintro c s ⟨⟨r0, hr0⟩, h2, h3⟩
    refine ⟨h2, ha.creatable _ _ hr0, fun r hr => ha.fits _ _ ((h3.2 r).1 hr), fun hk => ?_⟩
    obtain ⟨r, hr⟩ : ∃ r, ∀ x, x ∈ c.receivers ↔ x = r :=
      ⟨r0, fun x => ⟨fun hx => ha.oneToOne _ _ _ ((h3.2 x).1 hx) hr0 hk, fun hx => hx ▸ (h3.2 r0).2 hr0⟩⟩
    rw [eq_singleton_of h3.1 hr]
    rfl
  obtain ⟨is, his, hall⟩ := handleAll_good hn _ _ hgood hnd hne ⟨[], [], []⟩ (Q := fun _ => False)
    (fun _ _ h => by simp at h) (fun _ _ h => by simp at h) (fun _ _ h => h)
  -- senders of all components
  have hsend : ∀ s, s ∈ ss ↔ ∃ r, (r, s) ∈ conns := by
    intro s
    constructor
    · intro hs
      obtain ⟨i, hi, rfl⟩ := List.mem_iff_getElem.1 hs
      have hi' : i < (g.connected env).length := by rw [hss.length_eq]; exact hi
      exact (List.forall₂_iff_get.1 hss).2 i hi' hi |>.1
    · intro hs
      obtain ⟨c, hc, hsc⟩ := component_of_edge (env := env) hg hs (by
        obtain ⟨r, hr⟩ := hs; exact (roles_receives hro hr).2)
      obtain ⟨i, hi, rfl⟩ := List.mem_iff_getElem.1 hc
      have hi' : i < ss.length := by rw [← hss.length_eq]; exact hi
      have := ((List.forall₂_iff_get.1 hss).2 i hi hi').2.1
      simp only [List.get_eq_getElem] at this
      rw [this] at hsc
      simp only [List.mem_cons, List.not_mem_nil, or_false] at hsc
      rw [hsc]
      exact List.getElem_mem _
  have hssn : ss.Nodup := by
    have : ∀ (cs : List Connected) (ss : List Nat), List.Forall₂ (fun c s => c.senders = [s]) cs ss →
        (cs.flatMap Connected.ports).Nodup → ss.Nodup := by
      intro cs ss h
      induction h with
      | nil => simp
      | @cons c s cs ss h1 h2 ih =>
        simp only [List.flatMap_cons, List.nodup_append]
        rintro ⟨_, h3, h4⟩
        refine List.nodup_cons.2 ⟨fun hm => ?_, ih h3⟩
        obtain ⟨i, hi, hi2⟩ := List.mem_iff_getElem.1 hm
        have hi' : i < cs.length := by rw [h2.length_eq]; exact hi
        have h5 := (List.forall₂_iff_get.1 h2).2 i hi' hi
        simp only [List.get_eq_getElem, hi2] at h5
        refine h4 s (by simp [Connected.ports, h1]) s ?_ rfl
        exact List.mem_flatMap.2 ⟨cs[i], List.getElem_mem _, by simp [Connected.ports, h5]⟩
    exact this _ _ (hss.imp fun _ _ h => h.2.1) hnd
  have hrecv : ∀ r, r ∈ (g.connected env).flatMap Connected.receivers ↔ ∃ s, (r, s) ∈ conns := by
    intro r
    simp only [List.mem_flatMap]
    constructor
    · rintro ⟨c, hc, hr⟩
      obtain ⟨s, _, _, h3⟩ := hshape c hc
      exact ⟨s, (h3.2 r).1 hr⟩
    · rintro ⟨s, hr⟩
      obtain ⟨c, hc, hsc⟩ := component_of_edge (env := env) hg ⟨r, hr⟩ (roles_receives hro hr).2
      obtain ⟨s', _, h2, h3⟩ := hshape c hc
      rw [h2] at hsc
      simp only [List.mem_cons, List.not_mem_nil, or_false] at hsc
      subst hsc
      exact ⟨c, hc, (h3.2 r).2 hr⟩
  refine ⟨⟨[] ++ is, [] ++ entries env ss, [] ++ entries env ((g.connected env).flatMap Connected.receivers)⟩, ?_, ?_⟩
  · unfold initialise
    rw [hg]
    simp only
    rw [hall]
  · refine ⟨⟨ss, hssn, hsend, ?_⟩, ?_, ?_⟩
    · simp only [List.nil_append]
      have : ∀ (cs : List Connected) (ss : List Nat) (is : List (Inst α)),
          List.Forall₂ (fun c s => (∃ r, (r, s) ∈ conns) ∧ c.senders = [s] ∧ ReceiversOf conns s c.receivers) cs ss →
          List.Forall₂ (fun (x : Connected × Nat) i => Wired env x.2 x.1.receivers i) (cs.zip ss) is →
          List.Forall₂ (fun s i => ∃ rs, ReceiversOf conns s rs ∧ Wired env s rs i) ss is := by
        intro cs ss is h
        induction h generalizing is with
        | nil => intro h; simp only [List.zip_nil_right] at h; cases h; exact .nil
        | @cons c s cs ss h1 h2 ih =>
          intro h
          rw [List.zip_cons_cons] at h
          cases h with
          | cons h3 h4 => exact .cons ⟨c.receivers, h1.2.2, h3⟩ (ih _ h4)
      exact this _ _ _ hss his
    · intro n p
      simp only [List.nil_append, mem_entries, hsend]
      tauto
    · intro n p
      simp only [List.nil_append, mem_entries, hrecv]
      tauto

/-- **C91 (all other connections are rejected).** The connections are accepted exactly if they are acceptable; there is
never undefined behaviour, and an exception is thrown exactly if some connection occurs twice. -/
theorem accepted_iff {env : Env α} (hn : DistinctNames env) {conns : List (Nat × Nat)} (hro : Roles env conns) :
    ((∃ st, initialise env conns = .ok (st, true)) ↔ Acceptable env conns) ∧
    (¬ conns.Nodup → initialise env conns = .throw .logicError) ∧
    (conns.Nodup → ∃ st ok, initialise env conns = .ok (st, ok)) := by
  have hP : ∀ k ∈ conns, receives env k.1 = true ∧ ¬ receives env k.2 = true := fun k hk => by
    have := roles_receives hro (r := k.1) (s := k.2) hk
    simp [this.1, this.2]
  have hbs := build_succeeds conns ⟨[], []⟩ (fun p => receives env p = true) hP (by simp)
  refine ⟨⟨?_, fun h => (implemented hn hro h).imp fun _ h => h.1⟩, ?_, ?_⟩
  · rintro ⟨st, hst⟩
    unfold initialise at hst
    split at hst
    · cases hst
    · cases hst
    · next g hg =>
      split at hst
      · cases hst
      · next r hr =>
        cases hst
        have hv := (build_ok _ _ _ hg).2.1 (by simp)
        have hgood := (good_of_handleAll _ (fun c hc => component_receivers_ne hro hg hc) _ _ _ hr).2
        -- the component of a connection
        have hcomp : ∀ r s, (r, s) ∈ conns → ∃ c, (∃ t, Good env c t) ∧
            (∀ r' s', (r', s') ∈ conns → (r' = r ∨ s' = s) → r' ∈ c.receivers ∧ s' ∈ c.senders) := by
          intro r s hrs
          obtain ⟨c, hc, hce⟩ : ∃ c ∈ g.connected env, c = ⟨(g.vertices.filter fun p => labels g.edges p = labels g.edges s).filter fun p => !receives env p,
          (g.vertices.filter fun p => labels g.edges p = labels g.edges s).filter fun p => receives env p⟩ :=
            ⟨_, (mem_connected env hg _).2 ⟨s, ⟨_, hrs, Or.inr rfl⟩, rfl⟩, rfl⟩
          refine ⟨c, hgood c hc, ?_⟩
          intro r' s' hrs' hor
          have l1 := label_edge hg hrs
          have l2 := label_edge hg hrs'
          have hl : labels g.edges s' = labels g.edges s := by
            rcases hor with rfl | rfl
            · exact l2.trans l1.symm
            · rfl
          have hro' := roles_receives hro hrs'
          rw [hce]
          simp only [List.mem_filter, decide_eq_true_eq, Bool.not_eq_true']
          exact ⟨⟨⟨(vertex_of hg hrs').1, l2.symm.trans hl⟩, hro'.1⟩, ⟨⟨(vertex_of hg hrs').2, hl⟩, hro'.2⟩⟩
        refine ⟨(hbs.1 ⟨g, hg⟩).1, ?_, ?_, ?_, ?_⟩
        · intro r s s' h1 h2
          obtain ⟨c, ⟨t, ht⟩, hc⟩ := hcomp r s h1
          have e1 := (hc r s h1 (Or.inl rfl)).2
          have e2 := (hc r s' h2 (Or.inl rfl)).2
          rw [ht.sender] at e1 e2
          simp only [List.mem_cons, List.not_mem_nil, or_false] at e1 e2
          exact e1.trans e2.symm
        · intro r s h1
          obtain ⟨c, ⟨t, ht⟩, hc⟩ := hcomp r s h1
          have e1 := (hc r s h1 (Or.inl rfl))
          rw [ht.sender] at e1
          simp only [List.mem_cons, List.not_mem_nil, or_false] at e1
          exact e1.2 ▸ ht.fits r e1.1
        · intro r s h1
          obtain ⟨c, ⟨t, ht⟩, hc⟩ := hcomp r s h1
          have e1 := (hc r s h1 (Or.inl rfl)).2
          rw [ht.sender] at e1
          simp only [List.mem_cons, List.not_mem_nil, or_false] at e1
          exact e1 ▸ ht.creatable
        · intro r r' s h1 h2 hk
          obtain ⟨c, ⟨t, ht⟩, hc⟩ := hcomp r s h1
          have e1 := (hc r s h1 (Or.inl rfl))
          have e2 := (hc r' s h2 (Or.inr rfl)).1
          rw [ht.sender] at e1
          simp only [List.mem_cons, List.not_mem_nil, or_false] at e1
          obtain ⟨x, hx⟩ := List.length_eq_one_iff.1 (ht.one (e1.2 ▸ hk))
          have e1 := e1.1
          rw [hx] at e1 e2
          simp only [List.mem_cons, List.not_mem_nil, or_false] at e1 e2
          exact e1.trans e2.symm
  · intro hnd
    rcases build_cases conns ⟨[], []⟩ with h | h
    · exact absurd (hbs.1 h).1 hnd
    · unfold initialise; rw [h]
  · intro hnd
    obtain ⟨g, hg⟩ := hbs.2 ⟨hnd, by simp⟩
    have hv := (build_ok _ _ _ hg).2.1 (by simp)
    obtain ⟨⟨st, ok⟩, hx⟩ := handleAll_total hn (g.connected env) (connected_nodup env g hv) ⟨[], [], []⟩ true
      (Q := fun _ => False) (fun _ _ h => by simp at h) (fun _ _ h => by simp at h) (fun _ _ h => h)
    exact ⟨st, ok, by unfold initialise; rw [hg]; simp only [hx]⟩

/-- **C91 (who is attached to whom).** In an accepted flow, a sender and a receiver are attached to the same protocol
object exactly if they are connected. -/
theorem attached_iff {env : Env α} (hn : DistinctNames env) {conns : List (Nat × Nat)} (hro : Roles env conns)
    {st : State α} (h : initialise env conns = .ok (st, true)) (r s : Nat) :
    (∃ i ∈ st.protocols, i.outPtr s = true ∧ i.inPtr r = true) ↔ (r, s) ∈ conns := by
  have ha := (accepted_iff hn hro).1.1 ⟨st, h⟩
  obtain ⟨st', h', himp⟩ := implemented hn hro ha
  rw [h] at h'
  cases h'
  obtain ⟨ss, _, hmem, hf⟩ := himp.objects
  have hptr : ∀ (t : Nat) (rs : List Nat) (i : Inst α), Wired env t rs i →
      (∀ x, i.outPtr x = true ↔ x = t) ∧ (∀ x, i.inPtr x = true ↔ x ∈ rs) := by
    rintro t rs ⟨P, T, state⟩ ⟨_, _, h3⟩
    cases hk : env.kind (env.port t).protocol with
    | none => rw [hk] at h3; exact h3.elim
    | some k =>
      rw [hk] at h3
      cases k with
      | messageQueue =>
        obtain ⟨r, rfl, h4⟩ := h3
        simp only at h4; subst h4
        simp [Inst.outPtr, Inst.inPtr]
      | doubleBuffering =>
        obtain ⟨d, _, h4⟩ := h3
        simp only at h4; subst h4
        simp [Inst.outPtr, Inst.inPtr]
      | sharedData =>
        obtain ⟨d, _, h4⟩ := h3
        simp only at h4; subst h4
        simp [Inst.outPtr, Inst.inPtr]
  constructor
  · rintro ⟨i, hi, h1, h2⟩
    obtain ⟨n, hn', rfl⟩ := List.mem_iff_getElem.1 hi
    have hn'' : n < ss.length := by rw [hf.length_eq]; exact hn'
    obtain ⟨rs, hrs, hw⟩ := (List.forall₂_iff_get.1 hf).2 n hn'' hn'
    have := hptr _ _ _ hw
    simp only [List.get_eq_getElem] at this hrs
    have e1 := (this.1 s).1 h1
    rw [e1]
    exact (hrs.2 r).1 ((this.2 r).1 h2)
  · intro hk
    obtain ⟨n, hn', hs⟩ := List.mem_iff_getElem.1 ((hmem s).2 ⟨r, hk⟩)
    have hn'' : n < st.protocols.length := by rw [← hf.length_eq]; exact hn'
    obtain ⟨rs, hrs, hw⟩ := (List.forall₂_iff_get.1 hf).2 n hn' hn''
    simp only [List.get_eq_getElem, hs] at hrs hw
    have := hptr _ _ _ hw
    exact ⟨_, List.getElem_mem hn'', (this.1 s).2 rfl, (this.2 r).2 ((hrs.2 r).2 hk)⟩

/-- **C91 (values).** A value that the sender publishes through its protocol object is what each of its receivers gets: the
next message of a message queue, the value and the changed flag of double buffering, or the shared value. -/
theorem value_arrives {env : Env α} {s : Nat} {rs : List Nat} {i : Inst α} (h : Wired env s rs i) (v : α) (r : Nat)
    (hr : r ∈ rs) (inT outT : PortId → Bool) :
    (∃ m, i.state = .mq m ∧ ((m.step inT outT (.enqueue s v)).1.step inT outT (.front r)).2 = .ok (.val v)) ∨
    (∃ m, i.state = .db m ∧
      let m' := ((m.step inT outT (.modify s fun _ => v)).1.step inT outT (.swap s false)).1
      (m'.step inT outT (.read r)).2 = .ok (.val v) ∧ (m'.step inT outT (.changed r)).2 = .ok (.bool true)) ∨
    (∃ m, i.state = .sd m ∧ ((m.step inT outT (.modify s fun _ => v)).1.step inT outT (.read r)).2 = .ok (.val v)) := by
  obtain ⟨_, _, h3⟩ := h
  cases hk : env.kind (env.port s).protocol with
  | none => rw [hk] at h3; exact h3.elim
  | some k =>
    rw [hk] at h3
    cases k with
    | messageQueue =>
      obtain ⟨r', rfl, h4⟩ := h3
      simp only [List.mem_cons, List.not_mem_nil, or_false] at hr
      subst hr
      exact Or.inl ⟨_, h4, by simp [MQ.step, MQ.enqueue, MQ.nextElement]⟩
    | doubleBuffering =>
      obtain ⟨d, _, h4⟩ := h3
      exact Or.inr (Or.inl ⟨_, h4, by simp [DB.step, DB.swapBuffers, hr]⟩)
    | sharedData =>
      obtain ⟨d, _, h4⟩ := h3
      exact Or.inr (Or.inr ⟨_, h4, by simp [SD.step, hr]⟩)

/-- **C91 (external access).** In an accepted flow, the endpoint of a port of the flow is found under the name of the port,
exactly if the port is connected; other names are refused. -/
theorem external {env : Env α} (hn : DistinctNames env) {conns : List (Nat × Nat)} {st : State α}
    (hi : Implements env conns st) (n : String) (p : Nat) :
    (st.receive.lookup n = .ok p ↔ env.top p = true ∧ n = env.name p ∧ ∃ r, (r, p) ∈ conns) ∧
    (st.send.lookup n = .ok p ↔ env.top p = true ∧ n = env.name p ∧ ∃ s, (p, s) ∈ conns) ∧
    ((∀ q, (n, q) ∉ st.receive) → st.receive.lookup n = .throw .outOfRange) ∧
    ((∀ q, (n, q) ∉ st.send) → st.send.lookup n = .throw .outOfRange) := by
  have key : ∀ (e : Ends), (∀ m q, (m, q) ∈ e → env.top q = true ∧ m = env.name q) →
      (e.lookup n = .ok p ↔ (n, p) ∈ e) ∧ ((∀ q, (n, q) ∉ e) → e.lookup n = .throw .outOfRange) := by
    intro e he
    unfold Ends.lookup
    cases hf : e.find? fun x => x.1 = n with
    | none =>
      have hno : ∀ q, (n, q) ∉ e := fun q hq => by
        have := List.find?_eq_none.1 hf _ hq
        simp at this
      simp [hno]
    | some x =>
      obtain ⟨m, q⟩ := x
      have h1 := List.mem_of_find?_eq_some hf
      have h2 := List.find?_some hf
      simp only [decide_eq_true_eq] at h2
      subst h2
      constructor
      · simp only [Outcome.ok.injEq]
        constructor
        · rintro rfl; exact h1
        · intro hp
          exact hn q p (he _ _ h1).1 (he _ _ hp).1 ((he _ _ h1).2.symm.trans (he _ _ hp).2)
      · intro h; exact absurd h1 (h q)
  have k1 := key st.receive fun m q hq => let h := (hi.receive m q).1 hq; ⟨h.1, h.2.1⟩
  have k2 := key st.send fun m q hq => let h := (hi.send m q).1 hq; ⟨h.1, h.2.1⟩
  exact ⟨k1.1.trans (hi.receive n p), k2.1.trans (hi.send n p), k1.2, k2.2⟩

/-! ## Atomic flows -/

/-- **C91 (atomic flows).** A flow that consists of one atomic component has one protocol object per port, with an external
endpoint under the name of the port at the other end; an exception is thrown exactly if some protocol or parameter type is
not registered. -/
theorem atomic {env : Env α} (hn : DistinctNames env) (ps : List Nat) (hnd : ps.Nodup)
    (htop : ∀ p ∈ ps, env.top p = true) :
    ((∀ p ∈ ps, Creatable env p) → ∃ st, initialiseAtomic env ps ⟨[], [], []⟩ = .ok st ∧
      List.Forall₂ (fun p i => Wired env p [p] i) ps st.protocols ∧
      (∀ n p, (n, p) ∈ st.receive ↔ p ∈ ps ∧ n = env.name p ∧ (env.port p).input = true) ∧
      (∀ n p, (n, p) ∈ st.send ↔ p ∈ ps ∧ n = env.name p ∧ (env.port p).input = false)) ∧
    ((∃ p ∈ ps, ¬ Creatable env p) →
      ∃ e, (e = .outOfRange ∨ e = .invalidArgument) ∧ initialiseAtomic env ps ⟨[], [], []⟩ = .throw e) := by
  -- one port
  have one : ∀ p, env.top p = true → Creatable env p → ∃ i i1 i2 i', createProtocol env (env.port p).protocol (env.port p).type
      (env.port p).config = .ok i ∧ i.connectInput env p = (i1, .ok .unit) ∧ i1.connectOutput env p = (i', .ok .unit) ∧
      i.connectOutput env p = (i2, .ok .unit) ∧ i2.connectInput env p = (i', .ok .unit) ∧ Wired env p [p] i' := by
    intro p ht hc
    have hu : upd (fun _ => false) p true = fun q => decide (q = p) := by
      funext q; unfold upd; by_cases hq : q = p <;> simp [hq]
    rcases creatable_cases hc with ⟨hk, h⟩ | ⟨hk, d, hd, h⟩ | ⟨hk, d, hd, h⟩
    · refine ⟨_, ⟨(env.port p).protocol, (env.port p).type, .mq ⟨[], some p, none, upd (fun _ => false) p true, fun _ => false⟩⟩,
        ⟨(env.port p).protocol, (env.port p).type, .mq ⟨[], none, some p, fun _ => false, upd (fun _ => false) p true⟩⟩,
        ⟨(env.port p).protocol, (env.port p).type, .mq ⟨[], some p, some p, upd (fun _ => false) p true, upd (fun _ => false) p true⟩⟩, h, ?_, ?_, ?_, ?_, rfl, rfl, ?_⟩
      · simp [Inst.connectInput, MQ.connectInput, Inst.typed, ht, MQ.init]
      · simp [Inst.connectOutput, MQ.connectOutput, Inst.typed, ht]
      · simp [Inst.connectOutput, MQ.connectOutput, Inst.typed, ht, MQ.init]
      · simp [Inst.connectInput, MQ.connectInput, Inst.typed, ht]
      · rw [hk]; exact ⟨p, rfl, by simp [hu]⟩
    · refine ⟨_, ⟨(env.port p).protocol, (env.port p).type, .db ⟨d, d, [p], none, upd (fun _ => false) p true, fun _ => false, fun _ => false⟩⟩,
        ⟨(env.port p).protocol, (env.port p).type, .db ⟨d, d, [], some p, fun _ => false, upd (fun _ => false) p true, fun _ => false⟩⟩,
        ⟨(env.port p).protocol, (env.port p).type, .db ⟨d, d, [p], some p, upd (fun _ => false) p true, upd (fun _ => false) p true, fun _ => false⟩⟩, h, ?_, ?_, ?_, ?_, rfl, rfl, ?_⟩
      · simp [Inst.connectInput, DB.connectInput, Inst.typed, ht, DB.init]
      · simp [Inst.connectOutput, DB.connectOutput, Inst.typed, ht]
      · simp [Inst.connectOutput, DB.connectOutput, Inst.typed, ht, DB.init]
      · simp [Inst.connectInput, DB.connectInput, Inst.typed, ht]
      · rw [hk]; exact ⟨d, hd, by simp [hu]⟩
    · refine ⟨_, ⟨(env.port p).protocol, (env.port p).type, .sd ⟨d, [p], none, upd (fun _ => false) p true, fun _ => false⟩⟩,
        ⟨(env.port p).protocol, (env.port p).type, .sd ⟨d, [], some p, fun _ => false, upd (fun _ => false) p true⟩⟩,
        ⟨(env.port p).protocol, (env.port p).type, .sd ⟨d, [p], some p, upd (fun _ => false) p true, upd (fun _ => false) p true⟩⟩, h, ?_, ?_, ?_, ?_, rfl, rfl, ?_⟩
      · simp [Inst.connectInput, SD.connectInput, Inst.typed, ht, SD.init]
      · simp [Inst.connectOutput, SD.connectOutput, Inst.typed, ht]
      · simp [Inst.connectOutput, SD.connectOutput, Inst.typed, ht, SD.init]
      · simp [Inst.connectInput, SD.connectInput, Inst.typed, ht]
      · rw [hk]; exact ⟨d, hd, by simp [hu]⟩
  have notc : ∀ p, ¬ Creatable env p → ∃ e, (e = Exn.outOfRange ∨ e = .invalidArgument) ∧
      createProtocol env (env.port p).protocol (env.port p).type (env.port p).config = .throw e := by
    intro p hc
    unfold Creatable at hc
    unfold createProtocol
    cases hk : env.kind (env.port p).protocol with
    | none => exact ⟨_, Or.inl rfl, rfl⟩
    | some k =>
      have hcr : env.create (env.port p).type (env.port p).config = none := by
        by_contra h
        exact hc (Or.inr ⟨by simp [hk], h⟩)
      cases k with
      | messageQueue => exact absurd (Or.inl hk) hc
      | doubleBuffering => exact ⟨_, Or.inr rfl, by simp [hcr]⟩
      | sharedData => exact ⟨_, Or.inr rfl, by simp [hcr]⟩
  -- all ports
  have gen : ∀ (ps : List Nat) (st : State α) (Q : Nat → Prop), ps.Nodup → (∀ p ∈ ps, env.top p = true) →
      Named env Q st.receive → Named env Q st.send → (∀ p ∈ ps, ¬ Q p) →
      ((∀ p ∈ ps, Creatable env p) → ∃ is, List.Forall₂ (fun p i => Wired env p [p] i) ps is ∧
        initialiseAtomic env ps st = .ok ⟨st.protocols ++ is, st.receive ++ entries env (ps.filter fun p => (env.port p).input),
          st.send ++ entries env (ps.filter fun p => !(env.port p).input)⟩) ∧
      ((∃ p ∈ ps, ¬ Creatable env p) →
        ∃ e, (e = .outOfRange ∨ e = .invalidArgument) ∧ initialiseAtomic env ps st = .throw e) := by
    intro ps
    induction ps with
    | nil =>
      intro st Q _ _ _ _ _
      exact ⟨fun _ => ⟨[], .nil, by simp [initialiseAtomic, entries]⟩, by simp⟩
    | cons p ps ih =>
      intro st Q hnd htop hr hs hQ
      have hnd' := List.nodup_cons.1 hnd
      have ht := htop p (by simp)
      by_cases hc : Creatable env p
      · obtain ⟨i, i1, i2, i', h1, h2, h3, h4, h5, h6⟩ := one p ht hc
        have hQ' : ∀ q ∈ ps, ¬ (Q q ∨ q = p) := by
          rintro q hq (h | rfl)
          · exact hQ q (by simp [hq]) h
          · exact hnd'.1 hq
        cases hin : (env.port p).input with
        | true =>
          have hstep : initialiseAtomic env (p :: ps) st = initialiseAtomic env ps ⟨st.protocols ++ [i'], st.receive ++ [(env.name p, p)], st.send⟩ := by
            simp only [initialiseAtomic, h1, hin, h2, h3, insert_new hn hr ht (hQ p (by simp)), if_true]
          obtain ⟨g1, g2⟩ := ih ⟨st.protocols ++ [i'], st.receive ++ [(env.name p, p)], st.send⟩ (fun q => Q q ∨ q = p)
            hnd'.2 (fun q hq => htop q (by simp [hq])) (named_append hr ht) (hs.mono fun _ => Or.inl) hQ'
          rw [hstep]
          constructor
          · intro hall
            obtain ⟨is, k1, k2⟩ := g1 fun q hq => hall q (by simp [hq])
            refine ⟨i' :: is, .cons h6 k1, ?_⟩
            rw [k2]
            simp [hin, entries_cons, ht]
          · rintro ⟨q, hq, hqc⟩
            rcases List.mem_cons.1 hq with rfl | hq
            · exact absurd hc hqc
            · exact g2 ⟨q, hq, hqc⟩
        | false =>
          have hstep : initialiseAtomic env (p :: ps) st = initialiseAtomic env ps ⟨st.protocols ++ [i'], st.receive, st.send ++ [(env.name p, p)]⟩ := by
            simp only [initialiseAtomic, h1, hin, h4, h5, insert_new hn hs ht (hQ p (by simp)), Bool.false_eq_true, if_false]
          obtain ⟨g1, g2⟩ := ih ⟨st.protocols ++ [i'], st.receive, st.send ++ [(env.name p, p)]⟩ (fun q => Q q ∨ q = p)
            hnd'.2 (fun q hq => htop q (by simp [hq])) (hr.mono fun _ => Or.inl) (named_append hs ht) hQ'
          rw [hstep]
          constructor
          · intro hall
            obtain ⟨is, k1, k2⟩ := g1 fun q hq => hall q (by simp [hq])
            refine ⟨i' :: is, .cons h6 k1, ?_⟩
            rw [k2]
            simp [hin, entries_cons, ht]
          · rintro ⟨q, hq, hqc⟩
            rcases List.mem_cons.1 hq with rfl | hq
            · exact absurd hc hqc
            · exact g2 ⟨q, hq, hqc⟩
      · obtain ⟨e, he, hh⟩ := notc p hc
        refine ⟨fun hall => absurd (hall p (by simp)) hc, fun _ => ⟨e, he, ?_⟩⟩
        simp only [initialiseAtomic, hh]
  obtain ⟨g1, g2⟩ := gen ps ⟨[], [], []⟩ (fun _ => False) hnd htop (fun _ _ h => by simp at h) (fun _ _ h => by simp at h)
    (fun _ _ h => h)
  refine ⟨fun hall => ?_, g2⟩
  obtain ⟨is, k1, k2⟩ := g1 hall
  refine ⟨_, k2, k1, fun n p => ?_, fun n p => ?_⟩
  · simp only [List.nil_append, mem_entries, List.mem_filter]
    constructor
    · rintro ⟨⟨h1, h2⟩, _, h3⟩; exact ⟨h1, h3, h2⟩
    · rintro ⟨h1, h3, h2⟩; exact ⟨⟨h1, h2⟩, htop p h1, h3⟩
  · simp only [List.nil_append, mem_entries, List.mem_filter, Bool.not_eq_true']
    constructor
    · rintro ⟨⟨h1, h2⟩, _, h3⟩; exact ⟨h1, h3, h2⟩
    · rintro ⟨h1, h3, h2⟩; exact ⟨⟨h1, h2⟩, htop p h1, h3⟩

/-! ## Examples -/

/-- Ports 0 to 9: 0 and 1 are an input and an output of the flow, even ports otherwise are outputs, odd ones inputs. Ports
below 6 use double buffering, the other ones message queues. -/
def demoEnv : Env Nat :=
  { port := fun p => ⟨p, if p = 0 then true else if p = 1 then false else p % 2 == 1, if p < 6 then 0 else 1, 7, 3⟩
    name := fun p => if p = 0 then "in" else "out"
    top := fun p => p < 2
    kind := fun k => if k = 0 then some .doubleBuffering else if k = 1 then some .messageQueue else none
    create := fun _ c => some c
    cmp := fun a b => some (a == b) }

theorem demo_names : DistinctNames demoEnv := by
  intro p q hp hq h
  simp only [demoEnv, decide_eq_true_eq] at hp hq h
  have hp' : p = 0 ∨ p = 1 := by omega
  have hq' : q = 0 ∨ q = 1 := by omega
  rcases hp' with rfl | rfl <;> rcases hq' with rfl | rfl <;> simp_all

/-- The input of the flow feeds two receivers, a component feeds an input and the output of the flow, and there is a message
queue. -/
def demoConns : List (Nat × Nat) := [(1, 2), (3, 0), (5, 0), (7, 8)]

theorem demo_roles : Roles demoEnv demoConns := by
  intro r s h
  simp only [demoConns, List.mem_cons, Prod.mk.injEq, List.not_mem_nil, or_false] at h
  rcases h with ⟨rfl, rfl⟩ | ⟨rfl, rfl⟩ | ⟨rfl, rfl⟩ | ⟨rfl, rfl⟩ <;> decide

example : Acceptable demoEnv demoConns := by
  refine ⟨by decide, ?_, ?_, ?_, ?_⟩
  · intro r s s' h1 h2
    simp only [demoConns, List.mem_cons, Prod.mk.injEq, List.not_mem_nil, or_false] at h1 h2
    omega
  · intro r s h
    simp only [demoConns, List.mem_cons, Prod.mk.injEq, List.not_mem_nil, or_false] at h
    rcases h with ⟨rfl, rfl⟩ | ⟨rfl, rfl⟩ | ⟨rfl, rfl⟩ | ⟨rfl, rfl⟩ <;> exact ⟨by decide, by decide, by decide⟩
  · intro r s h
    simp only [demoConns, List.mem_cons, Prod.mk.injEq, List.not_mem_nil, or_false] at h
    rcases h with ⟨rfl, rfl⟩ | ⟨rfl, rfl⟩ | ⟨rfl, rfl⟩ | ⟨rfl, rfl⟩
    · exact Or.inr ⟨by decide, by decide⟩
    · exact Or.inr ⟨by decide, by decide⟩
    · exact Or.inr ⟨by decide, by decide⟩
    · exact Or.inl (by decide)
  · intro r r' s h1 h2 hk
    simp only [demoConns, List.mem_cons, Prod.mk.injEq, List.not_mem_nil, or_false] at h1 h2
    have : s ≠ 0 := by rintro rfl; exact absurd hk (by decide)
    omega

/-- What is observable of the result. -/
def demoResult (o : Outcome (State Nat × Bool)) : Option (List (List Nat × List Nat) × List (String × Nat) × List (String × Nat) × Bool) :=
  match o with
  | .ok (st, ok) => some (st.protocols.map (fun i => ((List.range 10).filter i.outPtr, (List.range 10).filter i.inPtr)),
      st.receive, st.send, ok)
  | _ => none

example : demoResult (initialise demoEnv demoConns) =
    some ([([2], [1]), ([0], [3, 5]), ([8], [7])], [("in", 0)], [("out", 1)], true) := by rfl

/-- Two senders at one receiver, two receivers at one message queue, ports of different protocols; a repeated connection. -/
example : (demoResult (initialise demoEnv [(3, 0), (3, 2)])).map (fun x => x.2.2.2) = some false ∧
    (demoResult (initialise demoEnv [(7, 8), (9, 8)])).map (fun x => x.2.2.2) = some false ∧
    (demoResult (initialise demoEnv [(7, 4)])).map (fun x => x.2.2.2) = some false ∧
    initialise demoEnv [(3, 0), (3, 0)] = .throw .logicError := ⟨by decide +kernel, by decide +kernel, by decide +kernel, rfl⟩

end Visr.ParamFlow
