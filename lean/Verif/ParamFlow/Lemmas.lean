import Verif.ParamFlow.Spec
import Mathlib.Logic.Relation
import Mathlib.Data.List.Nodup
import Mathlib.Tactic.Tauto

/-! # Lemmas about the parameter infrastructure -/

namespace Visr.ParamFlow
open Visr Visr.Flow Visr.Protocol

variable {α : Type}

/-! ## The graph -/

theorem mem_vertex (g : Graph) (p x : Nat) : x ∈ (g.vertex p).vertices ↔ x ∈ g.vertices ∨ x = p := by
  unfold Graph.vertex
  split
  · next h => exact ⟨Or.inl, fun hx => hx.elim id fun e => e ▸ h⟩
  · simp

theorem nodup_vertex (g : Graph) (p : Nat) (h : g.vertices.Nodup) : (g.vertex p).vertices.Nodup := by
  unfold Graph.vertex
  split
  · exact h
  · next hp => exact List.nodup_append.2 ⟨h, by simp, by simp; rintro a ha rfl; exact hp ha⟩

theorem edges_vertex (g : Graph) (p : Nat) : (g.vertex p).edges = g.edges := by
  unfold Graph.vertex; split <;> rfl

/-- What the loop over the connections computes. -/
theorem build_ok (ks : List (Nat × Nat)) (g g' : Graph) (h : Graph.build ks g = .ok g') :
    g'.edges = g.edges ++ ks.map Prod.swap ∧ (g.vertices.Nodup → g'.vertices.Nodup) ∧
      (∀ x, x ∈ g'.vertices ↔ x ∈ g.vertices ∨ ∃ k ∈ ks, x = k.1 ∨ x = k.2) := by
  induction ks generalizing g with
  | nil => simp only [Graph.build, Outcome.ok.injEq] at h; subst h; simp
  | cons k ks ih =>
    obtain ⟨r, s⟩ := k
    simp only [Graph.build] at h
    split at h
    · cases h
    · obtain ⟨h1, h2, h3⟩ := ih _ h
      refine ⟨?_, ?_, ?_⟩
      · rw [h1]; simp [edges_vertex]
      · intro hn; exact h2 (nodup_vertex _ _ (nodup_vertex _ _ hn))
      · intro x
        rw [h3]
        simp only [mem_vertex, List.mem_cons, exists_eq_or_imp]
        rw [or_assoc, or_assoc, ← or_assoc (a := x = s), or_comm (a := x = s)]

/-- The loop throws exactly if a connection occurs twice or in both directions. -/
theorem build_cases (ks : List (Nat × Nat)) (g : Graph) :
    (∃ g', Graph.build ks g = .ok g') ∨ Graph.build ks g = .throw .logicError := by
  induction ks generalizing g with
  | nil => exact Or.inl ⟨g, rfl⟩
  | cons k ks ih =>
    obtain ⟨r, s⟩ := k
    simp only [Graph.build]
    split
    · exact Or.inr rfl
    · exact ih _

theorem build_succeeds (ks : List (Nat × Nat)) (g : Graph) (P : Nat → Prop)
    (hr : ∀ k ∈ ks, P k.1 ∧ ¬ P k.2) (he : ∀ e ∈ g.edges, P e.2 ∧ ¬ P e.1) :
    (∃ g', Graph.build ks g = .ok g') ↔ ks.Nodup ∧ ∀ k ∈ ks, k.swap ∉ g.edges := by
  induction ks generalizing g with
  | nil => simp [Graph.build]
  | cons k ks ih =>
    obtain ⟨r, s⟩ := k
    have hrs := hr (r, s) (by simp)
    have hno : (r, s) ∉ g.edges := fun h => (he _ h).2 hrs.1
    simp only [Graph.build, edges_vertex]
    by_cases hin : (s, r) ∈ g.edges
    · rw [if_pos (Or.inl hin)]
      constructor
      · rintro ⟨g', h⟩; cases h
      · rintro ⟨_, h⟩; exact absurd hin (h (r, s) (by simp))
    · rw [if_neg (by tauto)]
      rw [ih _ (fun k hk => hr k (by simp [hk]))]
      · simp only [List.nodup_cons, List.mem_cons, List.mem_append, List.not_mem_nil, or_false, forall_eq_or_imp]
        constructor
        · rintro ⟨h1, h2⟩
          refine ⟨⟨fun hm => h2 _ hm (Or.inr rfl), h1⟩, hin, fun k hk hk' => h2 k hk (Or.inl hk')⟩
        · rintro ⟨⟨h1, h2⟩, _, h3⟩
          refine ⟨h2, fun k hk => ?_⟩
          rintro (h | h)
          · exact h3 k hk h
          · have : k = (r, s) := by
              obtain ⟨a, b⟩ := k
              simp only [Prod.swap_prod_mk, Prod.mk.injEq] at h
              simp [h.1, h.2]
            exact h1 (this ▸ hk)
      · intro e hm
        simp only [List.mem_append, List.mem_cons, List.not_mem_nil, or_false] at hm
        rcases hm with hm | rfl
        · exact he e hm
        · exact hrs

/-! ## Connected components -/

theorem foldl_labels (edges : List (Nat × Nat)) (lab : Nat → Nat) (R : Nat → Nat → Prop)
    (h : ∀ x y, lab x = lab y ↔ Relation.EqvGen R x y) (x y : Nat) :
    edges.foldl (fun lab e => relabel lab e.1 e.2) lab x = edges.foldl (fun lab e => relabel lab e.1 e.2) lab y ↔
      Relation.EqvGen (fun a b => R a b ∨ (a, b) ∈ edges) x y := by
  induction edges generalizing lab R with
  | nil => simpa using h x y
  | cons e es ih =>
    obtain ⟨a, b⟩ := e
    simp only [List.foldl_cons]
    rw [ih (relabel lab a b) (fun u v => R u v ∨ (u = a ∧ v = b))]
    · apply iff_of_eq
      congr 1
      funext u v
      simp only [List.mem_cons, Prod.mk.injEq, or_assoc]
    · intro u v
      have mono : ∀ {p q}, Relation.EqvGen R p q → Relation.EqvGen (fun u v => R u v ∨ (u = a ∧ v = b)) p q :=
        fun hpq => Relation.EqvGen.mono (fun _ _ hr => Or.inl hr) _ _ hpq
      have hab : Relation.EqvGen (fun u v => R u v ∨ (u = a ∧ v = b)) a b := .rel _ _ (Or.inr ⟨rfl, rfl⟩)
      constructor
      · intro huv
        unfold relabel at huv
        by_cases hu : lab u = lab b <;> by_cases hv : lab v = lab b
        · exact mono ((h u v).1 (hu.trans hv.symm))
        · rw [if_pos hu, if_neg hv] at huv
          exact (mono ((h u b).1 hu)).trans _ _ _ ((hab.symm).trans _ _ _ (mono ((h a v).1 huv)))
        · rw [if_neg hu, if_pos hv] at huv
          exact (mono ((h u a).1 huv)).trans _ _ _ (hab.trans _ _ _ (mono ((h b v).1 hv.symm)))
        · rw [if_neg hu, if_neg hv] at huv
          exact mono ((h u v).1 huv)
      · intro huv
        induction huv with
        | rel p q hpq =>
          rcases hpq with hpq | ⟨rfl, rfl⟩
          · have := (h p q).2 (.rel _ _ hpq)
            unfold relabel; rw [this]
          · unfold relabel; simp
        | refl p => rfl
        | symm p q _ ih => exact ih.symm
        | trans p q r _ _ ih1 ih2 => exact ih1.trans ih2

theorem labels_iff (edges : List (Nat × Nat)) (x y : Nat) :
    labels edges x = labels edges y ↔ Relation.EqvGen (fun a b => (a, b) ∈ edges) x y := by
  have := foldl_labels edges id (fun _ _ => False) (by
    intro u v
    constructor
    · rintro rfl; exact .refl _
    · intro h
      induction h with
      | rel _ _ h => exact h.elim
      | refl => rfl
      | symm _ _ _ ih => exact ih.symm
      | trans _ _ _ _ _ ih1 ih2 => exact ih1.trans ih2) x y
  simpa [labels] using this

theorem leaders_spec (lab : Nat → Nat) (seen vs : List Nat) :
    (leaders lab seen vs).Nodup ∧ ∀ l, l ∈ leaders lab seen vs ↔ l ∉ seen ∧ ∃ v ∈ vs, lab v = l := by
  induction vs generalizing seen with
  | nil => simp [leaders]
  | cons v vs ih =>
    simp only [leaders]
    split
    · next h =>
      refine ⟨(ih seen).1, fun l => ?_⟩
      rw [(ih seen).2]
      simp only [List.mem_cons, exists_eq_or_imp]
      constructor
      · tauto
      · rintro ⟨h1, h2 | h2⟩
        · exact absurd (h2 ▸ h) h1
        · exact ⟨h1, h2⟩
    · next h =>
      refine ⟨List.nodup_cons.2 ⟨fun hm => ((ih _).2 _ |>.1 hm).1 (by simp), (ih _).1⟩, fun l => ?_⟩
      rw [List.mem_cons, (ih _).2]
      simp only [List.mem_cons, exists_eq_or_imp, not_or]
      constructor
      · rintro (rfl | ⟨⟨_, h2⟩, h3⟩)
        · exact ⟨h, Or.inl rfl⟩
        · exact ⟨h2, Or.inr h3⟩
      · rintro ⟨h1, h2 | h2⟩
        · exact Or.inl h2.symm
        · by_cases hl : l = lab v
          · exact Or.inl hl
          · exact Or.inr ⟨⟨hl, h1⟩, h2⟩

/-! ## Roles -/

theorem roles_receives {env : Env α} {conns : List (Nat × Nat)} (h : Roles env conns) {r s : Nat} (hk : (r, s) ∈ conns) :
    receives env r = true ∧ receives env s = false := by
  obtain ⟨h1, h2⟩ := h r s hk
  unfold receives
  constructor
  · cases ht : env.top r <;> simp_all
  · cases ht : env.top s <;> simp_all

/-! ## Attaching one port -/

/-- The output port of a protocol object. -/
def Inst.output (i : Inst α) : Option Nat :=
  match i.state with
  | .mq x => x.output
  | .db x => x.output
  | .sd x => x.output

theorem connectOutput_taken {env : Env α} {i : Inst α} (p : Nat) (h : i.output.isSome) :
    ∃ e, (i.connectOutput env p).2 = .throw e := by
  obtain ⟨a, b, st⟩ := i
  cases st <;> simp only [Inst.output] at h <;>
    simp only [Inst.connectOutput, MQ.connectOutput, DB.connectOutput, SD.connectOutput] <;>
    split <;> exact ⟨_, rfl⟩

theorem connectOutput_cases (env : Env α) (i : Inst α) (p : Nat) :
    (∃ e, (i.connectOutput env p).2 = .throw e) ∨
      ((i.connectOutput env p).2 = .ok .unit ∧ (i.connectOutput env p).1.output = some p ∧ i.typed env p = true) := by
  obtain ⟨a, b, st⟩ := i
  cases st <;>
    simp only [Inst.connectOutput, MQ.connectOutput, DB.connectOutput, SD.connectOutput] <;>
    split <;> first | exact Or.inl ⟨_, rfl⟩ | (split <;> first | exact Or.inl ⟨_, rfl⟩ |
      (next h _ => exact Or.inr ⟨rfl, rfl, by simpa using h⟩))

theorem connectInput_cases (env : Env α) (i : Inst α) (p : Nat) :
    (∃ e, (i.connectInput env p).2 = .throw e) ∨ (i.connectInput env p).2 = .ok .unit := by
  obtain ⟨a, b, st⟩ := i
  cases st <;>
    simp only [Inst.connectInput, MQ.connectInput, DB.connectInput, SD.connectInput] <;>
    split <;> first | exact Or.inl ⟨_, rfl⟩ | exact Or.inr rfl | (split <;> first | exact Or.inl ⟨_, rfl⟩ | exact Or.inr rfl)

/-! ## Maps of endpoints -/

/-- All endpoints in the map carry the names of their ports, which satisfy `P`. -/
def Named (env : Env α) (P : Nat → Prop) (e : Ends) : Prop := ∀ n p, (n, p) ∈ e → env.top p = true ∧ n = env.name p ∧ P p

theorem insert_new {env : Env α} (hn : DistinctNames env) {P : Nat → Prop} {e : Ends} (he : Named env P e) {p : Nat}
    (ht : env.top p = true) (hp : ¬ P p) : e.insert (env.name p) p = some (e ++ [(env.name p, p)]) := by
  unfold Ends.insert
  rw [if_neg]
  intro hm
  obtain ⟨⟨n, q⟩, hq, hq'⟩ := List.mem_map.1 hm
  obtain ⟨h1, h2, h3⟩ := he n q hq
  have : p = q := hn p q ht h1 (by rw [← h2]; exact hq'.symm)
  exact hp (this ▸ h3)

theorem named_append {env : Env α} {P : Nat → Prop} {e : Ends} (he : Named env P e) {p : Nat} (ht : env.top p = true) :
    Named env (fun q => P q ∨ q = p) (e ++ [(env.name p, p)]) := by
  intro n q hq
  rcases List.mem_append.1 hq with h | h
  · obtain ⟨h1, h2, h3⟩ := he n q h
    exact ⟨h1, h2, Or.inl h3⟩
  · simp only [List.mem_cons, Prod.mk.injEq, List.not_mem_nil, or_false] at h
    exact ⟨h.2 ▸ ht, h.1.trans (h.2 ▸ rfl), Or.inr h.2⟩

theorem Named.mono {env : Env α} {P Q : Nat → Prop} {e : Ends} (he : Named env P e) (h : ∀ p, P p → Q p) : Named env Q e :=
  fun n p hp => ⟨(he n p hp).1, (he n p hp).2.1, h p (he n p hp).2.2⟩

/-! ## The loops over ports -/

/-- The entries that the top-level ports among `ps` get. -/
def entries (env : Env α) (ps : List Nat) : Ends := (ps.filter fun p => env.top p).map fun p => (env.name p, p)

theorem senders_general {env : Env α} (hn : DistinctNames env) (ps : List Nat) (w : Work α) (P : Nat → Prop)
    (hw : Named env P w.receive) (hp : ∀ p ∈ ps, ¬ P p) (hnd : ps.Nodup) :
    (connectSenders env ps w).2 ≠ .ub ∧ (connectSenders env ps w).1.send = w.send ∧
      Named env (fun q => P q ∨ q ∈ ps) (connectSenders env ps w).1.receive ∧
      (w.ok = false → (connectSenders env ps w).1.ok = false) := by
  induction ps generalizing w P with
  | nil => exact ⟨by simp [connectSenders], rfl, by simpa [connectSenders] using hw, fun h => h⟩
  | cons p ps ih =>
    have hnd' := List.nodup_cons.1 hnd
    simp only [connectSenders]
    rcases h : w.inst.connectOutput env p with ⟨i, o⟩
    have hc := connectOutput_cases env w.inst p
    rw [h] at hc
    rcases hc with ⟨e, he⟩ | ⟨he, _⟩
    · simp only at he; subst he
      simp only
      by_cases ht : env.top p = true
      · rw [if_pos ht]
        exact ⟨by simp, rfl, hw.mono fun _ => Or.inl, fun h => h⟩
      · rw [if_neg ht]
        obtain ⟨h1, h2, h3, h4⟩ := ih ⟨i, w.receive, w.send, false⟩ P hw (fun q hq => hp q (by simp [hq])) hnd'.2
        exact ⟨h1, h2, h3.mono fun q hq => hq.imp id (by simp +contextual), fun _ => h4 rfl⟩
    · simp only at he; subst he
      simp only
      by_cases ht : env.top p = true
      · rw [if_pos ht, insert_new hn hw ht (hp p (by simp))]
        obtain ⟨h1, h2, h3, h4⟩ := ih ⟨i, w.receive ++ [(env.name p, p)], w.send, w.ok⟩ _ (named_append hw ht)
          (fun q hq => by rintro (h | rfl); exact hp q (by simp [hq]) h; exact hnd'.1 hq) hnd'.2
        exact ⟨h1, h2, h3.mono fun q hq => by simp only [List.mem_cons]; tauto, h4⟩
      · rw [if_neg ht]
        obtain ⟨h1, h2, h3, h4⟩ := ih ⟨i, w.receive, w.send, w.ok⟩ P hw (fun q hq => hp q (by simp [hq])) hnd'.2
        exact ⟨h1, h2, h3.mono fun q hq => hq.imp id (by simp +contextual), h4⟩

theorem receivers_general {env : Env α} (hn : DistinctNames env) (ps : List Nat) (w : Work α) (P : Nat → Prop)
    (hw : Named env P w.send) (hp : ∀ p ∈ ps, ¬ P p) (hnd : ps.Nodup) :
    (connectReceivers env ps w).2 ≠ .ub ∧ (connectReceivers env ps w).1.receive = w.receive ∧
      Named env (fun q => P q ∨ q ∈ ps) (connectReceivers env ps w).1.send ∧
      (w.ok = false → (connectReceivers env ps w).1.ok = false) := by
  induction ps generalizing w P with
  | nil => exact ⟨by simp [connectReceivers], rfl, by simpa [connectReceivers] using hw, fun h => h⟩
  | cons p ps ih =>
    have hnd' := List.nodup_cons.1 hnd
    simp only [connectReceivers]
    rcases h : w.inst.connectInput env p with ⟨i, o⟩
    have hc := connectInput_cases env w.inst p
    rw [h] at hc
    by_cases ht : env.top p = true
    · rw [if_pos ht, insert_new hn hw ht (hp p (by simp))]
      simp only
      rcases hc with ⟨e, he⟩ | he
      · simp only at he; subst he
        exact ⟨by simp, rfl, (named_append hw ht).mono fun q hq => hq.imp id (by simp +contextual), fun h => h⟩
      · simp only at he; subst he
        obtain ⟨h1, h2, h3, h4⟩ := ih ⟨i, w.receive, w.send ++ [(env.name p, p)], w.ok⟩ _ (named_append hw ht)
          (fun q hq => by rintro (h | rfl); exact hp q (by simp [hq]) h; exact hnd'.1 hq) hnd'.2
        exact ⟨h1, h2, h3.mono fun q hq => by simp only [List.mem_cons]; tauto, h4⟩
    · rw [if_neg ht]
      rcases hc with ⟨e, he⟩ | he
      · simp only at he; subst he
        obtain ⟨h1, h2, h3, h4⟩ := ih ⟨i, w.receive, w.send, false⟩ P hw (fun q hq => hp q (by simp [hq])) hnd'.2
        exact ⟨h1, h2, h3.mono fun q hq => hq.imp id (by simp +contextual), fun _ => h4 rfl⟩
      · simp only at he; subst he
        obtain ⟨h1, h2, h3, h4⟩ := ih ⟨i, w.receive, w.send, w.ok⟩ P hw (fun q hq => hp q (by simp [hq])) hnd'.2
        exact ⟨h1, h2, h3.mono fun q hq => hq.imp id (by simp +contextual), h4⟩

/-- Once there is an output, further senders are errors. -/
theorem senders_taken {env : Env α} (ps : List Nat) (w : Work α) (hne : ps ≠ []) (h : w.inst.output.isSome) (hok : (connectSenders env ps w).2 = .ok ()) :
    (connectSenders env ps w).1.ok = false := by
  have key : ∀ (ps : List Nat) (w : Work α), w.ok = false → (connectSenders env ps w).2 = .ok () →
      (connectSenders env ps w).1.ok = false := by
    intro ps
    induction ps with
    | nil => intro w h _; exact h
    | cons p ps ih =>
      intro w h
      simp only [connectSenders]
      rcases w.inst.connectOutput env p with ⟨i, _ | _ | _⟩ <;> simp only
      · split
        · split
          · simp
          · exact ih _ h
        · exact ih _ h
      · split
        · simp
        · exact ih _ rfl
      · simp
  cases ps with
  | nil => exact absurd rfl hne
  | cons p ps =>
    obtain ⟨e, he⟩ := connectOutput_taken (env := env) p h
    simp only [connectSenders] at hok ⊢
    rcases h' : w.inst.connectOutput env p with ⟨i, o⟩
    rw [h'] at he hok
    simp only at he; subst he
    simp only at hok ⊢
    split at hok
    · cases hok
    · next ht =>
      rw [if_neg ht]
      exact key _ _ rfl hok

theorem senders_false {env : Env α} (ps : List Nat) (w : Work α) (h : w.ok = false)
    (hok : (connectSenders env ps w).2 = .ok ()) : (connectSenders env ps w).1.ok = false := by
  induction ps generalizing w with
  | nil => exact h
  | cons p ps ih =>
    revert hok
    simp only [connectSenders]
    rcases w.inst.connectOutput env p with ⟨i, _ | _ | _⟩ <;> simp only
    · split
      · split
        · simp
        · exact ih _ h
      · exact ih _ h
    · split
      · simp
      · exact ih _ rfl
    · simp

theorem receivers_false {env : Env α} (ps : List Nat) (w : Work α) (h : w.ok = false)
    (hok : (connectReceivers env ps w).2 = .ok ()) : (connectReceivers env ps w).1.ok = false := by
  induction ps generalizing w with
  | nil => exact h
  | cons p ps ih =>
    revert hok
    simp only [connectReceivers]
    rcases w.inst.connectInput env p with ⟨i, _ | _ | _⟩ <;> simp only
    · split
      · split
        · simp
        · exact ih _ h
      · exact ih _ h
    · split
      · split <;> simp
      · exact ih _ rfl
    · split
      · split <;> simp
      · simp

/-- A message queue that has an input accepts no other one. -/
theorem receivers_taken {env : Env α} {P T : Nat} {m : MQ α} (p : Nat) (ps : List Nat) (rc sd : Ends) (ok : Bool)
    (h : m.input.isSome) (hok : (connectReceivers env (p :: ps) ⟨⟨P, T, .mq m⟩, rc, sd, ok⟩).2 = .ok ()) :
    (connectReceivers env (p :: ps) ⟨⟨P, T, .mq m⟩, rc, sd, ok⟩).1.ok = false := by
  have hc : ∃ e, (Inst.connectInput env ⟨P, T, .mq m⟩ p).2 = .throw e := by
    simp only [Inst.connectInput, MQ.connectInput]
    split
    · exact ⟨_, rfl⟩
    · exact ⟨_, rfl⟩
  revert hok
  simp only [connectReceivers]
  rcases h' : Inst.connectInput env ⟨P, T, .mq m⟩ p with ⟨i, o⟩
  rw [h'] at hc
  obtain ⟨e, he⟩ := hc
  simp only at he; subst he
  simp only
  split
  · split <;> simp
  · exact receivers_false _ _ rfl

theorem senders_mq {env : Env α} (ps : List Nat) (w : Work α) (h : ∃ m, w.inst.state = .mq m) :
    ∃ m, (connectSenders env ps w).1.inst.state = .mq m := by
  induction ps generalizing w with
  | nil => exact h
  | cons p ps ih =>
    obtain ⟨⟨P, T, m'⟩, rc, sd, ok⟩ := w
    obtain ⟨m, rfl⟩ := h
    simp only [connectSenders]
    have hi : ∃ m2, (Inst.connectOutput env ⟨P, T, .mq m⟩ p).1.state = .mq m2 := ⟨_, rfl⟩
    rcases hc : Inst.connectOutput env ⟨P, T, .mq m⟩ p with ⟨i, o⟩
    rw [hc] at hi
    cases o <;> simp only
    · split
      · split
        · exact ⟨m, rfl⟩
        · exact ih _ hi
      · exact ih _ hi
    · split
      · exact hi
      · exact ih _ hi
    · exact hi

/-- A message queue does not get two receivers. -/
theorem receivers_two {env : Env α} {P T : Nat} {m : MQ α} (a b : Nat) (ps : List Nat) (rc sd : Ends) (ok : Bool)
    (hok : (connectReceivers env (a :: b :: ps) ⟨⟨P, T, .mq m⟩, rc, sd, ok⟩).2 = .ok ()) :
    (connectReceivers env (a :: b :: ps) ⟨⟨P, T, .mq m⟩, rc, sd, ok⟩).1.ok = false := by
  have hc : (∃ e, (Inst.connectInput env ⟨P, T, .mq m⟩ a).2 = .throw e) ∨
      ∃ m2 : MQ α, m2.input.isSome ∧ Inst.connectInput env ⟨P, T, .mq m⟩ a = (⟨P, T, .mq m2⟩, .ok .unit) := by
    simp only [Inst.connectInput, MQ.connectInput]
    split
    · exact Or.inl ⟨_, rfl⟩
    · split
      · exact Or.inl ⟨_, rfl⟩
      · exact Or.inr ⟨⟨m.queue, some a, m.output, upd m.inPtr a true, m.outPtr⟩, rfl, rfl⟩
  revert hok
  rw [connectReceivers]
  rcases hc with ⟨e, he⟩ | ⟨m2, hm2, he⟩
  · rcases h' : Inst.connectInput env ⟨P, T, .mq m⟩ a with ⟨i, o⟩
    rw [h'] at he
    simp only at he; subst he
    simp only
    split
    · split <;> simp
    · exact receivers_false _ _ rfl
  · simp only [he]
    split
    · split
      · simp
      · exact receivers_taken _ _ _ _ _ hm2
    · exact receivers_taken _ _ _ _ _ hm2

theorem entries_cons (env : Env α) (p : Nat) (ps : List Nat) :
    entries env (p :: ps) = (if env.top p = true then [(env.name p, p)] else []) ++ entries env ps := by
  unfold entries
  by_cases h : env.top p = true <;> simp [h]

/-- One step of the loop over the receivers that succeeds. -/
theorem receivers_step {env : Env α} (hn : DistinctNames env) {w : Work α} {Q : Nat → Prop} (hw : Named env Q w.send)
    {p : Nat} (hp : ¬ Q p) {ps : List Nat} {i : Inst α} (hi : w.inst.connectInput env p = (i, .ok .unit)) :
    connectReceivers env (p :: ps) w =
      connectReceivers env ps ⟨i, w.receive, w.send ++ (if env.top p = true then [(env.name p, p)] else []), w.ok⟩ := by
  simp only [connectReceivers]
  by_cases ht : env.top p = true
  · rw [if_pos ht, insert_new hn hw ht hp, if_pos ht]
    simp only [hi]
  · rw [if_neg ht, if_neg ht]
    simp only [hi, List.append_nil]

theorem named_if {env : Env α} {Q : Nat → Prop} {e : Ends} (he : Named env Q e) (p : Nat) :
    Named env (fun q => Q q ∨ q = p) (e ++ (if env.top p = true then [(env.name p, p)] else [])) := by
  by_cases ht : env.top p = true
  · rw [if_pos ht]; exact named_append he ht
  · rw [if_neg ht, List.append_nil]; exact he.mono fun _ => Or.inl

theorem receivers_db {env : Env α} (hn : DistinctNames env) {P T : Nat} (d : α) (out : Option Nat) (outP : Nat → Bool)
    (rs ins : List Nat) (inP : Nat → Bool) (rc sd : Ends) (ok : Bool) {Q : Nat → Prop} (hw : Named env Q sd)
    (hQ : ∀ p ∈ rs, ¬ Q p) (hnd : rs.Nodup) (hdis : ∀ p ∈ rs, p ∉ ins)
    (ht : ∀ p ∈ rs, env.top p = true ∨ (env.port p).protocol = P) :
    connectReceivers env rs ⟨⟨P, T, .db ⟨d, d, ins, out, inP, outP, fun _ => false⟩⟩, rc, sd, ok⟩ =
      (⟨⟨P, T, .db ⟨d, d, ins ++ rs, out, fun q => inP q || decide (q ∈ rs), outP, fun _ => false⟩⟩, rc,
        sd ++ entries env rs, ok⟩, .ok ()) := by
  induction rs generalizing ins inP sd Q with
  | nil => simp [connectReceivers, entries]
  | cons p ps ih =>
    have hnd' := List.nodup_cons.1 hnd
    have hi : Inst.connectInput env ⟨P, T, .db ⟨d, d, ins, out, inP, outP, fun _ => false⟩⟩ p =
        (⟨P, T, .db ⟨d, d, ins ++ [p], out, upd inP p true, outP, fun _ => false⟩⟩, .ok .unit) := by
      have h1 : ins.contains p = false := by
        have := hdis p (by simp)
        simpa using this
      have h2 : Inst.typed env (⟨P, T, .db ⟨d, d, ins, out, inP, outP, fun _ => false⟩⟩ : Inst α) p = true := by
        unfold Inst.typed
        rcases ht p (by simp) with h | h <;> simp [h]
      simp only [Inst.connectInput, DB.connectInput, h1, h2]
      simp
    rw [receivers_step hn hw (hQ p (by simp)) hi]
    rw [ih (Q := fun q => Q q ∨ q = p)]
    · simp only [entries_cons, List.append_assoc, List.singleton_append]
      congr 7
      funext q
      unfold upd
      by_cases hq : q = p <;> simp [hq]
    · exact named_if hw p
    · rintro q hq (h | rfl)
      · exact hQ q (by simp [hq]) h
      · exact hnd'.1 hq
    · exact hnd'.2
    · intro q hq hm
      rcases List.mem_append.1 hm with h | h
      · exact hdis q (by simp [hq]) h
      · simp only [List.mem_cons, List.not_mem_nil, or_false] at h
        exact hnd'.1 (h ▸ hq)
    · exact fun q hq => ht q (by simp [hq])

theorem receivers_sd {env : Env α} (hn : DistinctNames env) {P T : Nat} (d : α) (out : Option Nat) (outP : Nat → Bool)
    (rs ins : List Nat) (inP : Nat → Bool) (rc sd : Ends) (ok : Bool) {Q : Nat → Prop} (hw : Named env Q sd)
    (hQ : ∀ p ∈ rs, ¬ Q p) (hnd : rs.Nodup) (hdis : ∀ p ∈ rs, p ∉ ins)
    (ht : ∀ p ∈ rs, env.top p = true ∨ (env.port p).protocol = P) :
    connectReceivers env rs ⟨⟨P, T, .sd ⟨d, ins, out, inP, outP⟩⟩, rc, sd, ok⟩ =
      (⟨⟨P, T, .sd ⟨d, ins ++ rs, out, fun q => inP q || decide (q ∈ rs), outP⟩⟩, rc,
        sd ++ entries env rs, ok⟩, .ok ()) := by
  induction rs generalizing ins inP sd Q with
  | nil => simp [connectReceivers, entries]
  | cons p ps ih =>
    have hnd' := List.nodup_cons.1 hnd
    have hi : Inst.connectInput env ⟨P, T, .sd ⟨d, ins, out, inP, outP⟩⟩ p =
        (⟨P, T, .sd ⟨d, ins ++ [p], out, upd inP p true, outP⟩⟩, .ok .unit) := by
      have h1 : ins.contains p = false := by
        have := hdis p (by simp)
        simpa using this
      have h2 : Inst.typed env (⟨P, T, .sd ⟨d, ins, out, inP, outP⟩⟩ : Inst α) p = true := by
        unfold Inst.typed
        rcases ht p (by simp) with h | h <;> simp [h]
      simp only [Inst.connectInput, SD.connectInput, h1, h2]
      simp
    rw [receivers_step hn hw (hQ p (by simp)) hi]
    rw [ih (Q := fun q => Q q ∨ q = p)]
    · simp only [entries_cons, List.append_assoc, List.singleton_append]
      congr 7
      funext q
      unfold upd
      by_cases hq : q = p <;> simp [hq]
    · exact named_if hw p
    · rintro q hq (h | rfl)
      · exact hQ q (by simp [hq]) h
      · exact hnd'.1 hq
    · exact hnd'.2
    · intro q hq hm
      rcases List.mem_append.1 hm with h | h
      · exact hdis q (by simp [hq]) h
      · simp only [List.mem_cons, List.not_mem_nil, or_false] at h
        exact hnd'.1 (h ▸ hq)
    · exact fun q hq => ht q (by simp [hq])

/-- The loop over the senders if there is just one. -/
theorem senders_step {env : Env α} (hn : DistinctNames env) {w : Work α} {Q : Nat → Prop} (hw : Named env Q w.receive)
    {p : Nat} (hp : ¬ Q p) {i : Inst α} (hi : w.inst.connectOutput env p = (i, .ok .unit)) :
    connectSenders env [p] w = (⟨i, w.receive ++ entries env [p], w.send, w.ok⟩, .ok ()) := by
  simp only [connectSenders, hi, entries_cons]
  by_cases ht : env.top p = true
  · rw [if_pos ht, insert_new hn hw ht hp, if_pos ht]
    simp [entries]
  · rw [if_neg ht, if_neg ht]
    simp [entries]

/-- The object for sender `s`, after its output has been attached. -/
theorem creatable_cases {env : Env α} {s : Nat} (h : Creatable env s) :
    let P := (env.port s).protocol
    let T := (env.port s).type
    (env.kind P = some .messageQueue ∧ createProtocol env P T (env.port s).config = .ok ⟨P, T, .mq MQ.init⟩) ∨
    (env.kind P = some .doubleBuffering ∧ ∃ d, env.create T (env.port s).config = some d ∧
      createProtocol env P T (env.port s).config = .ok ⟨P, T, .db (DB.init d)⟩) ∨
    (env.kind P = some .sharedData ∧ ∃ d, env.create T (env.port s).config = some d ∧
      createProtocol env P T (env.port s).config = .ok ⟨P, T, .sd (SD.init d)⟩) := by
  intro P T
  rcases h with h | ⟨h1, h2⟩
  · exact Or.inl ⟨h, by simp only [P] at *; simp [createProtocol, h]⟩
  · obtain ⟨d, hd⟩ := Option.ne_none_iff_exists'.1 h2
    obtain ⟨k, hk⟩ := Option.ne_none_iff_exists'.1 h1
    cases k with
    | messageQueue => exact Or.inl ⟨hk, by simp [createProtocol, hk, P]⟩
    | doubleBuffering => exact Or.inr (Or.inl ⟨hk, d, hd, by simp [createProtocol, hk, P, hd, T]⟩)
    | sharedData => exact Or.inr (Or.inr ⟨hk, d, hd, by simp [createProtocol, hk, P, hd, T]⟩)

theorem create_ok_creatable {env : Env α} {s : Nat} {i : Inst α}
    (h : createProtocol env (env.port s).protocol (env.port s).type (env.port s).config = .ok i) : Creatable env s := by
  unfold createProtocol at h
  unfold Creatable
  cases hk : env.kind (env.port s).protocol with
  | none => rw [hk] at h; cases h
  | some k =>
    rw [hk] at h
    cases k with
    | messageQueue => exact Or.inl rfl
    | doubleBuffering =>
      simp only at h
      split at h
      · cases h
      · next d hd => exact Or.inr ⟨by simp, by simp [hd]⟩
    | sharedData =>
      simp only at h
      split at h
      · cases h
      · next d hd => exact Or.inr ⟨by simp, by simp [hd]⟩

theorem compatible_iff (cmp : Nat → Nat → Option Bool) (s r : PPort) : compatible cmp s r = true ↔ Matches cmp s r := by
  unfold compatible Matches
  by_cases ht : s.type = r.type
  · simp only [ht, ne_eq, not_true_eq_false, if_false]
    cases hc : cmp s.config r.config with
    | none => simp
    | some b => cases b <;> simp
  · simp [ht]

/-- What the attachment of a connection with one sender does. -/
theorem attach_single {env : Env α} (hn : DistinctNames env) {s : Nat} {rs : List Nat} (st : State α)
    (hc : Creatable env s) {Q : Nat → Prop} (hr : Named env Q st.receive) (hs : Named env Q st.send)
    (hQs : ¬ Q s) (hQr : ∀ p ∈ rs, ¬ Q p) (hnd : rs.Nodup)
    (ht : ∀ p ∈ rs, (env.port p).protocol = (env.port s).protocol) (hne : rs ≠ [])
    (h1 : env.kind (env.port s).protocol = some .messageQueue → rs.length = 1) :
    ∃ i, Wired env s rs i ∧ attach env ⟨[s], rs⟩ s st true =
      some (⟨st.protocols ++ [i], st.receive ++ entries env [s], st.send ++ entries env rs⟩, true) := by
  have hcs := creatable_cases hc
  simp only at hcs
  have ht' : ∀ p ∈ rs, env.top p = true ∨ (env.port p).protocol = (env.port s).protocol := fun p hp => Or.inr (ht p hp)
  rcases hcs with ⟨hk, hcr⟩ | ⟨hk, d, hd, hcr⟩ | ⟨hk, d, hd, hcr⟩
  · obtain ⟨r, rfl⟩ := List.length_eq_one_iff.1 (h1 hk)
    refine ⟨⟨(env.port s).protocol, (env.port s).type,
      .mq ⟨[], some r, some s, fun q => decide (q = r), fun q => decide (q = s)⟩⟩, ?_, ?_⟩
    · refine ⟨rfl, rfl, ?_⟩
      rw [hk]
      exact ⟨r, rfl, rfl⟩
    · unfold attach
      have hi : Inst.connectOutput env ⟨(env.port s).protocol, (env.port s).type, .mq (MQ.init : MQ α)⟩ s =
          (⟨(env.port s).protocol, (env.port s).type,
            .mq ⟨[], none, some s, fun _ => false, fun q => decide (q = s)⟩⟩, .ok .unit) := by
        have h2 : Inst.typed env (⟨(env.port s).protocol, (env.port s).type, .mq (MQ.init : MQ α)⟩ : Inst α) s = true := by
          simp [Inst.typed]
        simp only [Inst.connectOutput, MQ.connectOutput, h2]
        simp only [MQ.init, Bool.not_true, Bool.false_eq_true, if_false, Option.isSome_none, Prod.mk.injEq, and_true]
        congr 3
      have hi2 : Inst.connectInput env ⟨(env.port s).protocol, (env.port s).type,
            .mq (⟨[], none, some s, fun _ => false, fun q => decide (q = s)⟩ : MQ α)⟩ r =
          (⟨(env.port s).protocol, (env.port s).type,
            .mq ⟨[], some r, some s, fun q => decide (q = r), fun q => decide (q = s)⟩⟩, .ok .unit) := by
        have h2 : Inst.typed env (⟨(env.port s).protocol, (env.port s).type,
            .mq (⟨[], none, some s, fun _ => false, fun q => decide (q = s)⟩ : MQ α)⟩ : Inst α) r = true := by
          simp [Inst.typed, ht r (by simp)]
        simp only [Inst.connectInput, MQ.connectInput, h2]
        simp only [Bool.not_true, Bool.false_eq_true, if_false, Option.isSome_none, Prod.mk.injEq, and_true]
        congr 3
      rw [hcr]
      simp only
      rw [senders_step hn (w := ⟨_, st.receive, st.send, true⟩) hr hQs hi]
      simp only
      rw [receivers_step hn (w := ⟨_, _, st.send, true⟩) hs (hQr r (by simp)) hi2]
      by_cases htr : env.top r = true <;> simp [connectReceivers, entries, htr]
  · refine ⟨⟨(env.port s).protocol, (env.port s).type,
      .db ⟨d, d, rs, some s, fun q => decide (q ∈ rs), fun q => decide (q = s), fun _ => false⟩⟩, ?_, ?_⟩
    · refine ⟨rfl, rfl, ?_⟩
      rw [hk]
      exact ⟨d, hd, rfl⟩
    · unfold attach
      have hi : Inst.connectOutput env ⟨(env.port s).protocol, (env.port s).type, .db (DB.init d)⟩ s =
          (⟨(env.port s).protocol, (env.port s).type,
            .db ⟨d, d, [], some s, fun _ => false, fun q => decide (q = s), fun _ => false⟩⟩, .ok .unit) := by
        have h2 : Inst.typed env (⟨(env.port s).protocol, (env.port s).type, .db (DB.init d)⟩ : Inst α) s = true := by
          simp [Inst.typed]
        simp only [Inst.connectOutput, DB.connectOutput, h2]
        simp only [DB.init, Bool.not_true, Bool.false_eq_true, if_false, Option.isSome_none, Prod.mk.injEq, and_true]
        congr 3
      rw [hcr]
      simp only
      rw [senders_step hn (w := ⟨_, st.receive, st.send, true⟩) hr hQs hi]
      simp only
      rw [receivers_db hn d (some s) _ rs [] _ _ _ _ hs hQr hnd (by simp) ht']
      simp
  · refine ⟨⟨(env.port s).protocol, (env.port s).type,
      .sd ⟨d, rs, some s, fun q => decide (q ∈ rs), fun q => decide (q = s)⟩⟩, ?_, ?_⟩
    · refine ⟨rfl, rfl, ?_⟩
      rw [hk]
      exact ⟨d, hd, rfl⟩
    · unfold attach
      have hi : Inst.connectOutput env ⟨(env.port s).protocol, (env.port s).type, .sd (SD.init d)⟩ s =
          (⟨(env.port s).protocol, (env.port s).type,
            .sd ⟨d, [], some s, fun _ => false, fun q => decide (q = s)⟩⟩, .ok .unit) := by
        have h2 : Inst.typed env (⟨(env.port s).protocol, (env.port s).type, .sd (SD.init d)⟩ : Inst α) s = true := by
          simp [Inst.typed]
        simp only [Inst.connectOutput, SD.connectOutput, h2]
        simp only [SD.init, Bool.not_true, Bool.false_eq_true, if_false, Option.isSome_none, Prod.mk.injEq, and_true]
        congr 3
      rw [hcr]
      simp only
      rw [senders_step hn (w := ⟨_, st.receive, st.send, true⟩) hr hQs hi]
      simp only
      rw [receivers_sd hn d (some s) _ rs [] _ _ _ _ hs hQr hnd (by simp) ht']
      simp

/-- What the flow demands of the ports of one connection. -/
structure Good (env : Env α) (c : Connected) (s : Nat) : Prop where
  sender : c.senders = [s]
  creatable : Creatable env s
  fits : ∀ r ∈ c.receivers, Matches env.cmp (env.port s) (env.port r)
  one : env.kind (env.port s).protocol = some .messageQueue → c.receivers.length = 1

theorem handle_good {env : Env α} (hn : DistinctNames env) {c : Connected} {s : Nat} (hg : Good env c s) (st : State α)
    {Q : Nat → Prop} (hr : Named env Q st.receive) (hs : Named env Q st.send)
    (hQs : ¬ Q s) (hQr : ∀ p ∈ c.receivers, ¬ Q p) (hnd : c.receivers.Nodup) (hne : c.receivers ≠ []) :
    ∃ i, Wired env s c.receivers i ∧ handle env c st true =
      some (⟨st.protocols ++ [i], st.receive ++ entries env [s], st.send ++ entries env c.receivers⟩, true) := by
  obtain ⟨ss, rs⟩ := c
  obtain ⟨h1, h2, h3, h4⟩ := hg
  simp only at h1 h3 h4 hQr hnd hne
  subst h1
  obtain ⟨i, hi, ha⟩ := attach_single hn st h2 hr hs hQs hQr hnd (fun p hp => (h3 p hp).1.symm) hne h4
  refine ⟨i, hi, ?_⟩
  unfold handle Connected.numReceivers
  have : rs.all (fun p => compatible env.cmp (env.port s) (env.port p)) = true := by
    rw [List.all_eq_true]
    exact fun p hp => (compatible_iff _ _ _).2 (h3 p hp)
  simp only [List.length_singleton, Nat.lt_irrefl, if_false, List.all_nil, this, Bool.and_true, ha]

/-- If handling a connection does not report an error, the connection is good. -/
theorem good_of_handle {env : Env α} {c : Connected} {st st' : State α} {res : Bool}
    (hne : c.receivers ≠ []) (h : handle env c st res = some (st', true)) :
    res = true ∧ ∃ s, Good env c s := by
  obtain ⟨ss, rs⟩ := c
  simp only at hne
  unfold handle Connected.numReceivers at h
  cases ss with
  | nil => simp at h
  | cons s others =>
    simp only [List.length_cons] at h
    rw [if_neg (by omega), if_neg (by omega)] at h
    unfold attach at h
    split at h
    · cases h
    · simp at h
    · next i hcr =>
      have hcre := create_ok_creatable hcr
      split at h
      · cases h
      · simp at h
      · next w u hw =>
        split at h
        · cases h
        · simp at h
        · next w' u' hw' =>
          simp only [Option.some.injEq, Prod.mk.injEq] at h
          have hok' : w'.ok = true := h.2
          have hwok : w.ok = true := by
            by_contra hf
            have := receivers_false (env := env) rs w (by simpa using hf) (by rw [hw'])
            rw [hw'] at this
            simp only at this
            rw [this] at hok'
            cases hok'
          have hin' : ∀ b, connectSenders env (s :: others) ⟨i, st.receive, st.send, b⟩ = (w, .ok u) → b = true := by
            intro b hb
            by_contra hf
            have := senders_false (env := env) (s :: others) ⟨i, st.receive, st.send, b⟩ (Bool.eq_false_iff.2 hf)
              (by rw [hb])
            rw [hb] at this
            simp only at this
            rw [this] at hwok
            cases hwok
          have hin := hin' _ hw
          simp only [Bool.and_eq_true, List.all_eq_true] at hin
          refine ⟨hin.1.1, s, ?_, hcre, fun r hr => (compatible_iff _ _ _).1 (hin.2 r hr), ?_⟩
          · cases others with
            | nil => rfl
            | cons o os =>
              exfalso
              have hwok' := hwok
              simp only [connectSenders] at hw
              rcases hco : i.connectOutput env s with ⟨i2, o2⟩
              have hcc := connectOutput_cases env i s
              rw [hco] at hcc hw
              rcases hcc with ⟨e, he⟩ | ⟨he, hout, _⟩
              · simp only at he; subst he
                simp only at hw
                split at hw
                · simp at hw
                · have := senders_false (env := env) (o :: os) ⟨i2, st.receive, st.send, false⟩ rfl
                    (by simp only [connectSenders]; rw [hw])
                  simp only [connectSenders] at this
                  rw [hw] at this
                  simp only at this
                  rw [this] at hwok; cases hwok
              · simp only at he hout; subst he
                simp only at hw
                split at hw
                · split at hw
                  · simp at hw
                  · next e he =>
                    have := senders_taken (env := env) (o :: os) ⟨i2, e, st.send, _⟩ (by simp) (by simp [hout])
                      (by simp only [connectSenders]; rw [hw])
                    simp only [connectSenders] at this
                    rw [hw] at this
                    simp only at this
                    rw [this] at hwok; cases hwok
                · have := senders_taken (env := env) (o :: os) ⟨i2, st.receive, st.send, _⟩ (by simp) (by simp [hout])
                    (by simp only [connectSenders]; rw [hw])
                  simp only [connectSenders] at this
                  rw [hw] at this
                  simp only at this
                  rw [this] at hwok; cases hwok
          · intro hk
            have hi : i = ⟨(env.port s).protocol, (env.port s).type, .mq MQ.init⟩ := by
              simp only [createProtocol, hk, Outcome.ok.injEq] at hcr
              exact hcr.symm
            have hm : ∃ m, w.inst.state = .mq m := by
              have := congrArg (fun x => x.1.inst.state) hw
              simp only at this
              rw [← this]
              exact senders_mq _ _ ⟨_, by rw [hi]⟩
            obtain ⟨⟨P, T, m'⟩, rc, sd, ok⟩ := w
            obtain ⟨m, rfl⟩ := hm
            match rs, hne with
            | [r], _ => rfl
            | a :: b :: rest, _ =>
              exfalso
              have := receivers_two (env := env) (P := P) (T := T) (m := m) a b rest rc sd ok (by rw [hw'])
              rw [hw'] at this
              simp only at this
              rw [this] at hok'
              cases hok'

end Visr.ParamFlow
