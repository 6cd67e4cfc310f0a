import Verif.ParamFlow.Lemmas

/-! # Lemmas about the components of the connection graph -/

namespace Visr.ParamFlow
open Visr Visr.Flow Visr.Protocol

variable {α : Type}

/-- All ports of a connection. -/
def Connected.ports (c : Connected) : List Nat := c.senders ++ c.receivers

theorem entries_append (env : Env α) (a b : List Nat) : entries env (a ++ b) = entries env a ++ entries env b := by
  simp [entries]

theorem mem_entries (env : Env α) (ps : List Nat) (n : String) (p : Nat) :
    (n, p) ∈ entries env ps ↔ p ∈ ps ∧ env.top p = true ∧ n = env.name p := by
  simp only [entries, List.mem_map, List.mem_filter, Prod.mk.injEq]
  constructor
  · rintro ⟨q, ⟨h1, h2⟩, h3, rfl⟩; exact ⟨h1, h2, h3.symm⟩
  · rintro ⟨h1, h2, h3⟩; exact ⟨p, ⟨h1, h2⟩, h3.symm, rfl⟩

theorem named_entries {env : Env α} {Q : Nat → Prop} {e : Ends} (he : Named env Q e) (ps : List Nat) :
    Named env (fun q => Q q ∨ q ∈ ps) (e ++ entries env ps) := by
  intro n p hp
  rcases List.mem_append.1 hp with h | h
  · obtain ⟨h1, h2, h3⟩ := he n p h; exact ⟨h1, h2, Or.inl h3⟩
  · obtain ⟨h1, h2, h3⟩ := (mem_entries env ps n p).1 h; exact ⟨h2, h3, Or.inr h1⟩

/-- Good connections are handled one after the other. -/
theorem handleAll_good {env : Env α} (hn : DistinctNames env) (cs : List Connected) (ss : List Nat)
    (hg : List.Forall₂ (Good env) cs ss) (hnd : (cs.flatMap Connected.ports).Nodup) (hne : ∀ c ∈ cs, c.receivers ≠ [])
    (st : State α) {Q : Nat → Prop} (hr : Named env Q st.receive) (hs : Named env Q st.send)
    (hQ : ∀ p ∈ cs.flatMap Connected.ports, ¬ Q p) :
    ∃ is, List.Forall₂ (fun (x : Connected × Nat) i => Wired env x.2 x.1.receivers i) (cs.zip ss) is ∧
      handleAll env cs st true = some (⟨st.protocols ++ is, st.receive ++ entries env ss,
        st.send ++ entries env (cs.flatMap Connected.receivers)⟩, true) := by
  induction hg generalizing st Q with
  | nil => exact ⟨[], by simp, by simp [handleAll, entries]⟩
  | @cons c s cs ss hc _ ih =>
    simp only [List.flatMap_cons, List.nodup_append, List.mem_append] at hnd hQ
    obtain ⟨hnd1, hnd2, hdis⟩ := hnd
    have hss := hc.sender
    have hmem : s ∈ c.ports := by simp [Connected.ports, hss]
    have hnr : c.receivers.Nodup := by
      have := hnd1
      simp only [Connected.ports, List.nodup_append] at this
      exact this.2.1
    obtain ⟨i, hi, hh⟩ := handle_good hn hc st hr hs (hQ s (Or.inl hmem))
      (fun p hp => hQ p (Or.inl (by simp [Connected.ports, hp]))) hnr (hne c (by simp))
    have hQ' : ∀ p ∈ cs.flatMap Connected.ports, ¬ (Q p ∨ p ∈ c.ports) := by
      rintro p hp (h | h)
      · exact hQ p (Or.inr hp) h
      · exact hdis p h p hp rfl
    obtain ⟨is, his, hall⟩ := ih hnd2 (fun c hc => hne c (by simp [hc]))
      ⟨st.protocols ++ [i], st.receive ++ entries env [s], st.send ++ entries env c.receivers⟩
      (Q := fun q => Q q ∨ q ∈ c.ports)
      ((named_entries hr [s]).mono fun q hq => hq.imp id fun h => by
        simp only [List.mem_cons, List.not_mem_nil, or_false] at h; exact h ▸ hmem)
      ((named_entries hs c.receivers).mono fun q hq => hq.imp id fun h => by simp [Connected.ports, h]) hQ'
    refine ⟨i :: is, by simpa using ⟨hi, his⟩, ?_⟩
    simp only [handleAll, hh, hall, List.append_assoc, List.singleton_append, List.flatMap_cons, entries_append]
    have : entries env (s :: ss) = entries env [s] ++ entries env ss := by
      rw [← entries_append]; rfl
    rw [this]

theorem good_of_handleAll {env : Env α} (cs : List Connected) (hne : ∀ c ∈ cs, c.receivers ≠ []) (st st' : State α)
    (res : Bool) (h : handleAll env cs st res = some (st', true)) : res = true ∧ ∀ c ∈ cs, ∃ s, Good env c s := by
  induction cs generalizing st res with
  | nil =>
    simp only [handleAll, Option.some.injEq, Prod.mk.injEq] at h
    exact ⟨h.2, by simp⟩
  | cons c cs ih =>
    simp only [handleAll] at h
    split at h
    · cases h
    · next st2 r hc =>
      obtain ⟨h1, h2⟩ := ih (fun c hc => hne c (by simp [hc])) _ _ h
      subst h1
      obtain ⟨h3, s, h4⟩ := good_of_handle (hne c (by simp)) hc
      refine ⟨h3, ?_⟩
      simp only [List.mem_cons, forall_eq_or_imp]
      exact ⟨⟨s, h4⟩, h2⟩

theorem attach_total {env : Env α} (hn : DistinctNames env) (ss rs : List Nat) (ref : Nat)
    (hnd : ss.Nodup ∧ rs.Nodup) (st : State α) (b : Bool) {Q : Nat → Prop}
    (hr : Named env Q st.receive) (hs : Named env Q st.send) (hQ : ∀ p, p ∈ ss ∨ p ∈ rs → ¬ Q p) :
    ∃ st' r, attach env ⟨ss, rs⟩ ref st b = some (st', r) ∧ Named env (fun q => Q q ∨ (q ∈ ss ∨ q ∈ rs)) st'.receive ∧
      Named env (fun q => Q q ∨ (q ∈ ss ∨ q ∈ rs)) st'.send := by
  have hr' : Named env (fun q => Q q ∨ (q ∈ ss ∨ q ∈ rs)) st.receive := hr.mono fun _ => Or.inl
  have hs' : Named env (fun q => Q q ∨ (q ∈ ss ∨ q ∈ rs)) st.send := hs.mono fun _ => Or.inl
  unfold attach
  split
  · next h =>
    exfalso
    unfold createProtocol at h
    split at h
    · cases h
    · cases h
    · split at h <;> cases h
    · split at h <;> cases h
  · exact ⟨_, _, rfl, hr', hs'⟩
  · next i _ =>
    obtain ⟨g1, g2, g3, _⟩ := senders_general hn ss ⟨i, st.receive, st.send, b⟩ Q hr
      (fun p hp => hQ p (Or.inl hp)) hnd.1
    rcases hw : connectSenders env ss ⟨i, st.receive, st.send, b⟩ with ⟨w, o⟩
    rw [hw] at g1 g2 g3
    simp only at g1 g2 g3
    have g3' : Named env (fun q => Q q ∨ (q ∈ ss ∨ q ∈ rs)) w.receive := g3.mono fun q hq => hq.imp id Or.inl
    have g2' : Named env Q w.send := by rw [g2]; exact hs
    cases o with
    | ub => exact absurd rfl g1
    | throw e => exact ⟨_, _, rfl, g3', g2'.mono fun q => Or.inl⟩
    | ok u =>
      obtain ⟨k1, k2, k3, _⟩ := receivers_general hn rs w Q g2' (fun p hp => hQ p (Or.inr hp)) hnd.2
      rcases hw2 : connectReceivers env rs w with ⟨w', o'⟩
      rw [hw2] at k1 k2 k3
      simp only at k1 k2 k3
      have k3' : Named env (fun q => Q q ∨ (q ∈ ss ∨ q ∈ rs)) w'.send := k3.mono fun q hq => hq.imp id Or.inr
      have k2' : Named env (fun q => Q q ∨ (q ∈ ss ∨ q ∈ rs)) w'.receive := by rw [k2]; exact g3'
      simp only [hw2]
      cases o' with
      | ub => exact absurd rfl k1
      | throw e => exact ⟨_, _, rfl, k2', k3'⟩
      | ok u' => exact ⟨_, _, rfl, k2', k3'⟩

/-- No undefined behaviour, whatever the connections. -/
theorem handle_total {env : Env α} (hn : DistinctNames env) (c : Connected) (hnd : c.ports.Nodup) (st : State α) (res : Bool)
    {Q : Nat → Prop} (hr : Named env Q st.receive) (hs : Named env Q st.send) (hQ : ∀ p ∈ c.ports, ¬ Q p) :
    ∃ st' r, handle env c st res = some (st', r) ∧ Named env (fun q => Q q ∨ q ∈ c.ports) st'.receive ∧
      Named env (fun q => Q q ∨ q ∈ c.ports) st'.send := by
  obtain ⟨ss, rs⟩ := c
  simp only [Connected.ports, List.nodup_append, List.mem_append] at hnd hQ ⊢
  cases ss with
  | nil => exact ⟨st, _, rfl, hr.mono fun _ => Or.inl, hs.mono fun _ => Or.inl⟩
  | cons s others => exact attach_total hn _ _ _ ⟨hnd.1, hnd.2.1⟩ _ _ hr hs hQ

theorem handleAll_total {env : Env α} (hn : DistinctNames env) (cs : List Connected)
    (hnd : (cs.flatMap Connected.ports).Nodup) (st : State α) (res : Bool)
    {Q : Nat → Prop} (hr : Named env Q st.receive) (hs : Named env Q st.send)
    (hQ : ∀ p ∈ cs.flatMap Connected.ports, ¬ Q p) : ∃ x, handleAll env cs st res = some x := by
  induction cs generalizing st res Q with
  | nil => exact ⟨_, rfl⟩
  | cons c cs ih =>
    simp only [List.flatMap_cons, List.nodup_append, List.mem_append] at hnd hQ
    obtain ⟨st', r, h1, h2, h3⟩ := handle_total hn c hnd.1 st res hr hs fun p hp => hQ p (Or.inl hp)
    simp only [handleAll, h1]
    refine ih hnd.2.1 _ _ h2 h3 ?_
    rintro p hp (h | h)
    · exact hQ p (Or.inr hp) h
    · exact hnd.2.2 p h p hp rfl

/-! ## Components of the graph -/

theorem connected_nodup (env : Env α) (g : Graph) (hv : g.vertices.Nodup) :
    ((g.connected env).flatMap Connected.ports).Nodup := by
  unfold Graph.connected
  simp only
  have hl := (leaders_spec (labels g.edges) [] g.vertices).1
  generalize leaders (labels g.edges) [] g.vertices = ls at hl
  rw [List.flatMap_map, List.nodup_flatMap]
  constructor
  · intro l _
    simp only [Connected.ports]
    rw [List.nodup_append]
    refine ⟨(hv.filter _).filter _, (hv.filter _).filter _, ?_⟩
    intro a ha b hb hab
    simp only [List.mem_filter] at ha hb
    subst hab
    simp [ha.2] at hb
    simp [hb.2] at ha
  · refine hl.imp ?_
    intro l l' hne
    simp only [Function.onFun, Connected.ports, List.disjoint_left]
    intro a ha hb
    simp only [List.mem_append, List.mem_filter, decide_eq_true_eq] at ha hb
    apply hne
    rcases ha with ha | ha <;> rcases hb with hb | hb <;> exact ha.1.2.symm.trans hb.1.2

/-- The components of the graph of the connections. -/
theorem mem_connected (env : Env α) {conns : List (Nat × Nat)} {g : Graph} (hg : Graph.build conns ⟨[], []⟩ = .ok g)
    (c : Connected) : c ∈ g.connected env ↔
      ∃ v, (∃ k ∈ conns, v = k.1 ∨ v = k.2) ∧
        c = ⟨(g.vertices.filter fun p => labels g.edges p = labels g.edges v).filter fun p => !receives env p,
          (g.vertices.filter fun p => labels g.edges p = labels g.edges v).filter fun p => receives env p⟩ := by
  have hb := (build_ok _ _ _ hg).2.2
  have hl := (leaders_spec (labels g.edges) [] g.vertices).2
  simp only [Graph.connected, List.mem_map, hl]
  constructor
  · rintro ⟨l, ⟨_, v, hv, rfl⟩, rfl⟩
    refine ⟨v, ?_, rfl⟩
    simpa using (hb v).1 hv
  · rintro ⟨v, hv, rfl⟩
    exact ⟨_, ⟨by simp, v, (hb v).2 (Or.inr hv), rfl⟩, rfl⟩

theorem label_edge {conns : List (Nat × Nat)} {g : Graph} (hg : Graph.build conns ⟨[], []⟩ = .ok g) {r s : Nat}
    (h : (r, s) ∈ conns) : labels g.edges s = labels g.edges r := by
  rw [labels_iff]
  refine .rel _ _ ?_
  rw [(build_ok _ _ _ hg).1]
  simp only [List.nil_append, List.mem_map]
  exact ⟨(r, s), h, rfl⟩

theorem vertex_of {conns : List (Nat × Nat)} {g : Graph} (hg : Graph.build conns ⟨[], []⟩ = .ok g) {r s : Nat}
    (h : (r, s) ∈ conns) : r ∈ g.vertices ∧ s ∈ g.vertices := by
  have hb := (build_ok _ _ _ hg).2.2
  exact ⟨(hb r).2 (Or.inr ⟨_, h, Or.inl rfl⟩), (hb s).2 (Or.inr ⟨_, h, Or.inr rfl⟩)⟩

/-- With one sender per receiver, a component consists of a sender and its receivers. -/
theorem component_of_sender {env : Env α} {conns : List (Nat × Nat)} (hro : Roles env conns)
    (hsingle : ∀ r s s', (r, s) ∈ conns → (r, s') ∈ conns → s = s') {g : Graph}
    (hg : Graph.build conns ⟨[], []⟩ = .ok g) {r0 s : Nat} (hs : (r0, s) ∈ conns) (y : Nat)
    (h : labels g.edges y = labels g.edges s) : y = s ∨ (y, s) ∈ conns := by
  have key : ∀ a b, Relation.EqvGen (fun a b => (a, b) ∈ g.edges) a b → ((a = s ∨ (a, s) ∈ conns) ↔ (b = s ∨ (b, s) ∈ conns)) := by
    intro a b hab
    induction hab with
    | rel a b hab =>
      rw [(build_ok _ _ _ hg).1] at hab
      simp only [List.nil_append, List.mem_map, Prod.exists, Prod.swap_prod_mk, Prod.mk.injEq] at hab
      obtain ⟨r, t, hrt, rfl, rfl⟩ := hab
      have h1 := roles_receives hro hrt
      have h2 := roles_receives hro hs
      constructor
      · rintro (rfl | h)
        · exact Or.inr hrt
        · have := (roles_receives hro h).1
          rw [h1.2] at this; cases this
      · rintro (rfl | h)
        · rw [h1.1] at h2; cases h2.2
        · exact Or.inl (hsingle _ _ _ hrt h)
    | refl => rfl
    | symm _ _ _ ih => exact ih.symm
    | trans _ _ _ _ _ ih1 ih2 => exact ih1.trans ih2
  exact (key y s ((labels_iff _ _ _).1 h)).2 (Or.inl rfl)

theorem eq_singleton_of {l : List Nat} {s : Nat} (hn : l.Nodup) (hm : ∀ x, x ∈ l ↔ x = s) : l = [s] := by
  cases l with
  | nil => exact absurd ((hm s).2 rfl) (by simp)
  | cons a l =>
    have ha : a = s := (hm a).1 (by simp)
    subst ha
    cases l with
    | nil => rfl
    | cons b l =>
      have : b = a := (hm b).1 (by simp)
      subst this
      simp at hn

/-- The component of a sender, if the connections are acceptable. -/
theorem component_shape {env : Env α} {conns : List (Nat × Nat)} (hro : Roles env conns)
    (hsingle : ∀ r s s', (r, s) ∈ conns → (r, s') ∈ conns → s = s') {g : Graph}
    (hg : Graph.build conns ⟨[], []⟩ = .ok g) {c : Connected} (hc : c ∈ g.connected env) :
    ∃ s, (∃ r, (r, s) ∈ conns) ∧ c.senders = [s] ∧ ReceiversOf conns s c.receivers := by
  have hv := (build_ok _ _ _ hg).2.1 (by simp)
  obtain ⟨v, ⟨⟨r, s⟩, hk, hv2⟩, rfl⟩ := (mem_connected env hg c).1 hc
  have hlab : labels g.edges v = labels g.edges s := by
    rcases hv2 with rfl | rfl
    · exact (label_edge hg hk).symm
    · rfl
  have hrs := roles_receives hro hk
  refine ⟨s, ⟨r, hk⟩, ?_, ?_, ?_⟩
  · refine eq_singleton_of ((hv.filter _).filter _) fun x => ?_
    simp only [List.mem_filter, decide_eq_true_eq, Bool.not_eq_true', hlab]
    constructor
    · rintro ⟨⟨_, h2⟩, h3⟩
      rcases component_of_sender hro hsingle hg hk x h2 with h | h
      · exact h
      · rw [(roles_receives hro h).1] at h3; cases h3
    · rintro rfl
      exact ⟨⟨(vertex_of hg hk).2, rfl⟩, hrs.2⟩
  · exact (hv.filter _).filter _
  · intro x
    simp only [List.mem_filter, decide_eq_true_eq, hlab]
    constructor
    · rintro ⟨⟨_, h2⟩, h3⟩
      rcases component_of_sender hro hsingle hg hk x h2 with h | h
      · subst h; rw [hrs.2] at h3; cases h3
      · exact h
    · intro h
      exact ⟨⟨(vertex_of hg h).1, (label_edge hg h).symm⟩, (roles_receives hro h).1⟩

theorem component_of_edge {env : Env α} {conns : List (Nat × Nat)} {g : Graph}
    (hg : Graph.build conns ⟨[], []⟩ = .ok g) {s : Nat} (hs : ∃ r, (r, s) ∈ conns) (hns : receives env s = false) :
    ∃ c ∈ g.connected env, s ∈ c.senders := by
  obtain ⟨r, hr⟩ := hs
  refine ⟨_, (mem_connected env hg _).2 ⟨s, ⟨(r, s), hr, Or.inr rfl⟩, rfl⟩, ?_⟩
  simp only [List.mem_filter, decide_eq_true_eq, Bool.not_eq_true', and_true]
  exact ⟨(vertex_of hg hr).2, hns⟩

theorem component_receivers_ne {env : Env α} {conns : List (Nat × Nat)} (hro : Roles env conns) {g : Graph}
    (hg : Graph.build conns ⟨[], []⟩ = .ok g) {c : Connected} (hc : c ∈ g.connected env) : c.receivers ≠ [] := by
  obtain ⟨v, ⟨⟨r, s⟩, hk, hv2⟩, rfl⟩ := (mem_connected env hg c).1 hc
  intro h
  have : r ∈ ([] : List Nat) := by
    rw [← h]
    simp only [List.mem_filter, decide_eq_true_eq]
    refine ⟨⟨(vertex_of hg hk).1, ?_⟩, (roles_receives hro hk).1⟩
    rcases hv2 with rfl | rfl
    · rfl
    · exact (label_edge hg hk).symm
  cases this

end Visr.ParamFlow
