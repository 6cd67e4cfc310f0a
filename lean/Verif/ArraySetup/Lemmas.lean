import Verif.ArraySetup.Spec
import Mathlib.Data.List.Forall2
import Mathlib.Data.List.Sort

/-! # Lemmas about array configurations -/

namespace Visr.ArraySetup
open Visr

variable {K : Type}

/-- The set is ordered. -/
def Ordered (a : List (Speaker K)) : Prop := (a.map Speaker.id).Pairwise (· < ·)

theorem insert_spec (s : Speaker K) (a : List (Speaker K)) (h : Ordered a) :
    (s.id ∈ a.map Speaker.id ∧ insert s a = none) ∨
    (s.id ∉ a.map Speaker.id ∧ ∃ b, insert s a = some b ∧ Ordered b ∧ b.Perm (s :: a)) := by
  induction a with
  | nil => exact Or.inr ⟨by simp, [s], rfl, by simp [Ordered], List.Perm.refl _⟩
  | cons x xs ih =>
    have hx : (∀ y ∈ xs.map Speaker.id, x.id < y) ∧ Ordered xs := by
      simpa [Ordered] using h
    unfold insert
    by_cases h1 : s.id < x.id
    · refine Or.inr ⟨?_, s :: x :: xs, by rw [if_pos h1], ?_, List.Perm.refl _⟩
      · intro hm
        rcases List.mem_cons.1 hm with e | hm
        · omega
        · have := hx.1 _ hm
          omega
      · unfold Ordered
        simp only [List.map_cons, List.pairwise_cons, List.mem_cons, forall_eq_or_imp]
        exact ⟨⟨h1, fun y hy => lt_trans h1 (hx.1 y hy)⟩, hx.1, hx.2⟩
    · rw [if_neg h1]
      by_cases h2 : x.id < s.id
      · rw [if_pos h2]
        rcases ih hx.2 with ⟨h3, h4⟩ | ⟨h3, b, h4, h5, h6⟩
        · exact Or.inl ⟨by simp only [List.map_cons, List.mem_cons]; exact Or.inr h3, by rw [h4]; rfl⟩
        · refine Or.inr ⟨?_, x :: b, by rw [h4]; rfl, ?_, ?_⟩
          · simp only [List.map_cons, List.mem_cons, not_or]
            exact ⟨by omega, h3⟩
          · unfold Ordered
            simp only [List.map_cons, List.pairwise_cons]
            refine ⟨fun y hy => ?_, h5⟩
            have := (h6.map Speaker.id).mem_iff.1 hy
            simp only [List.map_cons, List.mem_cons] at this
            rcases this with e | hy
            · omega
            · exact hx.1 y hy
          · exact (List.Perm.cons x h6).trans (List.Perm.swap s x xs)
      · rw [if_neg h2]
        exact Or.inl ⟨by simp only [List.map_cons, List.mem_cons]; left; omega, rfl⟩

theorem getD_eq (e : Entry K) (d0 d : K) : e.getD d0 = d ↔ e = .val d ∨ (d = d0 ∧ ∀ x, e ≠ .val x) := by
  cases e with
  | missing => simp [Entry.getD, eq_comm]
  | malformed => simp [Entry.getD, eq_comm]
  | val x => simp [Entry.getD]

theorem readNode_iff [Zero K] (db : K → K) (n : Node K) (s : Speaker K) :
    readNode db n = .ok s ↔ Describes db n s.id s.gain s.delay := by
  obtain ⟨id, g, d⟩ := s
  obtain ⟨nid, ng, nb, nd⟩ := n
  constructor
  · intro h
    unfold readNode at h
    cases nid with
    | missing => simp [Entry.get] at h
    | malformed => simp [Entry.get] at h
    | val i =>
      simp only [Entry.get] at h
      cases ng <;> cases nb <;> simp only [Entry.get?, Outcome.ok.injEq, Speaker.mk.injEq, reduceCtorEq] at h <;>
        obtain ⟨rfl, rfl, h3⟩ := h <;> refine ⟨rfl, ?_, (getD_eq _ _ _).1 h3⟩ <;> simp
  · rintro ⟨h1, h2, h3⟩
    simp only at h1
    subst h1
    have h3' := (getD_eq nd 0 d).2 h3
    unfold readNode
    simp only [Entry.get]
    rcases h2 with ⟨h2, h4⟩ | ⟨x, h2, rfl, h4⟩
    · simp only at h2 h4
      subst h2
      cases nb with
      | missing => simp [Entry.get?, h3']
      | malformed => simp [Entry.get?, h3']
      | val y => exact absurd rfl (h4 y)
    · simp only at h2 h4
      subst h2
      cases ng with
      | missing => simp [Entry.get?, h3']
      | malformed => simp [Entry.get?, h3']
      | val y => exact absurd rfl (h4 y)

theorem readNode_cases [Zero K] (db : K → K) (n : Node K) :
    (∃ s, readNode db n = .ok s) ∨ readNode db n = .throw .invalidArgument ∨ readNode db n = .throw .runtimeError := by
  unfold readNode
  cases n.id with
  | missing => simp [Entry.get]
  | malformed => simp [Entry.get]
  | val i =>
    simp only [Entry.get]
    cases n.gain <;> cases n.gainDB <;> simp [Entry.get?]

/-- What holds at all times. -/
structure Inv (c : Config K) : Prop where
  ordered : Ordered c.array
  subs : c.subwoofers.Nodup
  known : ∀ i ∈ c.subwoofers, i ∈ c.array.map Speaker.id

theorem Inv.nodup {c : Config K} (h : Inv c) : (c.array.map Speaker.id).Nodup :=
  h.ordered.imp (fun h => Nat.ne_of_lt h)

/-- The loop over nodes keeps the invariant, and is described by the nodes read. -/
theorem loadNodes_spec [Zero K] (db : K → K) (sub : Bool) (ns : List (Node K)) (c : Config K) (hc : Inv c) :
    Inv (loadNodes db sub ns c).1 ∧
    ((loadNodes db sub ns c).2 = .ok () ∨ (loadNodes db sub ns c).2 = .throw .invalidArgument ∨
      (loadNodes db sub ns c).2 = .throw .runtimeError) ∧
    ((loadNodes db sub ns c).2 = .ok () → ∃ ss, List.Forall₂ (fun n s => readNode db n = .ok s) ns ss ∧
      (loadNodes db sub ns c).1.array.Perm (ss.reverse ++ c.array) ∧
      (loadNodes db sub ns c).1.subwoofers = c.subwoofers ++ (if sub then ss.map Speaker.id else [])) ∧
    (∀ ss, List.Forall₂ (fun n s => readNode db n = .ok s) ns ss →
      ((ss.map Speaker.id) ++ c.array.map Speaker.id).Nodup → (loadNodes db sub ns c).2 = .ok ()) := by
  induction ns generalizing c with
  | nil =>
    refine ⟨hc, Or.inl rfl, fun _ => ⟨[], .nil, List.Perm.refl _, by cases sub <;> simp [loadNodes]⟩, fun _ _ _ => rfl⟩
  | cons n ns ih =>
    unfold loadNodes
    rcases readNode_cases db n with ⟨s, hs⟩ | hs | hs
    · simp only [hs]
      rcases insert_spec s c.array hc.ordered with ⟨h1, h2⟩ | ⟨h1, b, h2, h3, h4⟩
      · simp only [h2]
        refine ⟨hc, by simp, by simp, ?_⟩
        intro ss hss hnd
        cases hss with
        | cons h5 h6 =>
          rw [hs] at h5
          cases h5
          simp only [List.map_cons, List.cons_append, List.nodup_cons, List.mem_append, not_or] at hnd
          exact absurd h1 hnd.1.2
      · simp only [h2]
        have hm : ∀ i, i ∈ b.map Speaker.id ↔ i = s.id ∨ i ∈ c.array.map Speaker.id := fun i => by
          rw [(h4.map Speaker.id).mem_iff]; simp
        have hinv : Inv (⟨b, if sub then c.subwoofers ++ [s.id] else c.subwoofers⟩ : Config K) := by
          refine ⟨h3, ?_, ?_⟩
          · cases sub with
            | false => exact hc.subs
            | true =>
              simp only [if_true, List.nodup_append, List.nodup_singleton, List.mem_singleton]
              refine ⟨hc.subs, trivial, ?_⟩
              rintro i hi j rfl rfl
              exact h1 (hc.known _ hi)
          · cases sub with
            | false => exact fun i hi => (hm i).2 (Or.inr (hc.known i hi))
            | true =>
              simp only [if_true, List.mem_append, List.mem_singleton]
              rintro i (hi | rfl)
              · exact (hm i).2 (Or.inr (hc.known i hi))
              · exact (hm _).2 (Or.inl rfl)
        obtain ⟨i1, i2, i3, i4⟩ := ih _ hinv
        refine ⟨i1, i2, fun h => ?_, ?_⟩
        · obtain ⟨ss, j1, j2, j3⟩ := i3 h
          refine ⟨s :: ss, .cons hs j1, j2.trans ?_, ?_⟩
          · rw [List.reverse_cons, List.append_assoc]
            exact List.Perm.append_left _ h4
          · rw [j3]
            cases sub <;> simp
        · intro ss hss hnd
          cases hss with
          | @cons _ s' _ ss' h5 h6 =>
            rw [hs] at h5
            cases h5
            refine i4 ss' h6 ?_
            have : ((ss'.map Speaker.id) ++ b.map Speaker.id).Perm ((s :: ss').map Speaker.id ++ c.array.map Speaker.id) := by
              simp only [List.map_cons, List.cons_append]
              refine (List.Perm.append_left _ (h4.map Speaker.id)).trans ?_
              simp only [List.map_cons]
              exact List.perm_middle
            exact this.nodup_iff.2 hnd
    · simp only [hs]
      refine ⟨hc, by simp, by simp, ?_⟩
      intro ss hss
      cases hss with
      | cons h5 _ => rw [hs] at h5; cases h5
    · simp only [hs]
      refine ⟨hc, by simp, by simp, ?_⟩
      intro ss hss
      cases hss with
      | cons h5 _ => rw [hs] at h5; cases h5

theorem gap_iff (x : Speaker K) (xs : List (Speaker K)) :
    gap (x :: xs) = false ↔ (x :: xs).map Speaker.id = List.range' x.id (xs.length + 1) := by
  induction xs generalizing x with
  | nil => simp [gap, List.range']
  | cons y ys ih =>
    unfold gap
    simp only [ne_eq, decide_not, Bool.or_eq_false_iff, Bool.not_eq_false', decide_eq_true_eq]
    rw [ih y]
    constructor
    · rintro ⟨h1, h2⟩
      rw [List.map_cons, h2, ← h1]
      simp [List.range']
    · intro h
      simp only [List.map_cons, List.length_cons, List.range'_succ, List.cons.injEq, true_and] at h
      obtain ⟨h1, h2⟩ := h
      refine ⟨h1.symm, ?_⟩
      simp only [List.map_cons, List.range'_succ, List.cons.injEq, true_and]
      rw [h2, h1]

/-- The final check: the numbers are `1, 2, …`. -/
theorem checkArray_iff (a : List (Speaker K)) :
    (checkArray a = .ok () ↔ a.map Speaker.id = List.range' 1 a.length) ∧
    (checkArray a = .ok () ∨ checkArray a = .throw .invalidArgument) := by
  cases a with
  | nil => simp [checkArray]
  | cons x xs =>
    unfold checkArray
    by_cases hx : x.id = 1
    · simp only [hx, ne_eq, not_true_eq_false, if_false]
      cases hg : gap (x :: xs) with
      | false =>
        have := (gap_iff x xs).1 hg
        rw [hx] at this
        simp only [Bool.false_eq_true, if_false, true_iff, true_or, and_true]
        exact this
      | true =>
        simp only [if_true, reduceCtorEq, false_iff, false_or, and_true]
        intro h
        have := (gap_iff x xs).2 (by rw [hx]; exact h)
        rw [hg] at this
        cases this
    · simp only [ne_eq, hx, not_false_eq_true, if_true, reduceCtorEq, false_iff, false_or, and_true]
      intro h
      rw [List.map_cons, List.length_cons, List.range'_succ] at h
      exact hx (List.cons.inj h).1

/-- An ordered list that is a permutation of `1, …, n` is `1, …, n`. -/
theorem ordered_perm {l : List Nat} (h : l.Pairwise (· < ·)) {s n : Nat} (hp : l.Perm (List.range' s n)) : l = List.range' s n :=
  hp.eq_of_pairwise (fun _ _ _ _ h1 h2 => absurd h1 (Nat.lt_asymm h2)) h List.pairwise_lt_range'

end Visr.ArraySetup
