import Verif.Execute.Spec
import Verif.Layout.Props
import Mathlib.Tactic.Common

/-!
# Facts about the execution of a signal flow
-/

namespace Visr.Execute
open Visr Visr.Schedule

variable {V S : Type*} {A : Nat → Atom V S}

/-! ## Elementary facts -/

theorem runAtom_mem_of_not {s : State V S} {a x : Nat} (h : x ∉ (A a).writes) : (runAtom A s a).1.mem x = s.mem x := by
  simp [runAtom, h]

theorem runAtom_st_of_ne {s : State V S} {a b : Nat} (h : b ≠ a) : (runAtom A s a).1.st b = s.st b := by
  simp [runAtom, h]

theorem run_cons (a : Nat) (l : List Nat) (s : State V S) :
    run A (a :: l) s = if (runAtom A s a).2 = true then run A l (runAtom A s a).1 else ((runAtom A s a).1, false) := by
  rw [run]
  rcases h : runAtom A s a with ⟨s', b⟩
  cases b <;> simp

theorem run_append (p q : List Nat) (s : State V S) :
    run A (p ++ q) s = if (run A p s).2 = true then run A q (run A p s).1 else run A p s := by
  induction p generalizing s with
  | nil => simp [run]
  | cons a p ih =>
    rw [List.cons_append, run_cons, run_cons]
    by_cases h : (runAtom A s a).2 = true
    · rw [if_pos h, if_pos h, ih]
    · rw [if_neg h, if_neg h]
      simp

theorem run_frame : ∀ (l : List Nat) (s : State V S),
    (∀ x, (∀ a ∈ l, x ∉ (A a).writes) → (run A l s).1.mem x = s.mem x) ∧
    (∀ b, b ∉ l → (run A l s).1.st b = s.st b) := by
  intro l
  induction l with
  | nil => intro s; exact ⟨fun _ _ => rfl, fun _ _ => rfl⟩
  | cons a l ih =>
    intro s
    rw [run_cons]
    by_cases h : (runAtom A s a).2 = true
    · rw [if_pos h]
      refine ⟨?_, ?_⟩
      · intro x hx
        rw [(ih _).1 x (fun b hb => hx b (by simp [hb])), runAtom_mem_of_not (hx a (by simp))]
      · intro b hb
        rw [List.mem_cons, not_or] at hb
        rw [(ih _).2 b hb.2, runAtom_st_of_ne hb.1]
    · rw [if_neg h]
      refine ⟨?_, ?_⟩
      · intro x hx
        exact runAtom_mem_of_not (hx a (by simp))
      · intro b hb
        rw [List.mem_cons, not_or] at hb
        exact runAtom_st_of_ne hb.1

theorem before_mem {l p q : List Nat} {a b : Nat} (hn : l.Nodup) (hl : l = p ++ a :: q) (h : Before l b a) : b ∈ p := by
  obtain ⟨x, y, z, e⟩ := h
  have hap : a ∉ p := by
    rw [hl, List.nodup_append] at hn
    exact fun h => hn.2.2 a h a (by simp) rfl
  have hax : a ∉ x ++ b :: y := by
    rw [e, List.nodup_append] at hn
    exact fun h => hn.2.2 a h a (by simp) rfl
  have : p = x ++ b :: y := by
    have e' : p ++ a :: q = (x ++ b :: y) ++ a :: z := by rw [← hl, e]
    rcases List.append_eq_append_iff.1 e' with ⟨w, h1, h2⟩ | ⟨w, h1, h2⟩
    · cases w with
      | nil => simpa using h1.symm
      | cons c w =>
        simp only [List.cons_append, List.cons.injEq] at h2
        rw [← h2.1] at h1
        exact absurd (by rw [h1]; simp) hax
    · cases w with
      | nil => simpa using h1
      | cons c w =>
        simp only [List.cons_append, List.cons.injEq] at h2
        rw [← h2.1] at h1
        exact absurd (by rw [h1]; simp) hap
  rw [this]
  simp

/-! ## The equations of the flow -/

/-- **C27.** Executing an admissible schedule solves the flow's equations: it succeeds with the state `s'` iff `s'` is the
solution of the equations of this block, that is, the outputs and the new state of every component result from its inputs
of the same block. -/
theorem run_iff_solution {atoms : List Nat} {c : Conns} {l : List Nat} (hadm : Admissible atoms c l)
    (hw : AudioWired A (fun _ => True) atoms c) (s s' : State V S) : run A l s = (s', true) ↔ Solution A atoms s s' := by
  have hm : ∀ a, a ∈ l ↔ a ∈ atoms := fun a => hadm.perm.mem_iff
  constructor
  · intro hrun
    have hframe := run_frame (A := A) l s
    rw [hrun] at hframe
    refine ⟨?_, fun x hx => hframe.1 x (fun a ha => hx a ((hm a).1 ha)), fun a ha => hframe.2 a (fun h => ha ((hm a).1 h))⟩
    intro a ha
    obtain ⟨p, q, hl⟩ := List.append_of_mem ((hm a).2 ha)
    have hnd := hadm.nodup
    rw [hl] at hnd
    have hap : a ∉ p := fun h => (List.nodup_append.1 hnd).2.2 a h a (by simp) rfl
    have haq : a ∉ q := (List.nodup_cons.1 (List.nodup_append.1 hnd).2.1).1
    have hpl : ∀ b ∈ p, b ∈ atoms := fun b hb => (hm b).1 (by rw [hl]; simp [hb])
    have hql : ∀ b ∈ q, b ∈ atoms := fun b hb => (hm b).1 (by rw [hl]; simp [hb])
    rw [hl, run_append] at hrun
    have fp := run_frame (A := A) p s
    generalize run A p s = r1 at hrun fp
    obtain ⟨s1, b1⟩ := r1
    cases b1 with
    | false => simp at hrun
    | true =>
      simp only [if_true] at hrun
      rw [run_cons] at hrun
      by_cases hok : (runAtom A s1 a).2 = true
      · rw [if_pos hok] at hrun
        have fq := run_frame (A := A) q (runAtom A s1 a).1
        rw [hrun] at fq
        have hst : s1.st a = s.st a := fp.2 a hap
        have hread : (A a).step (s1.st a) s1.mem =
            (A a).step (s.st a) (fun x => if x ∈ (A a).writes then s.mem x else s'.mem x) := by
          rw [hst]
          refine (A a).locality _ _ _ ?_
          intro x hx
          by_cases hxw : x ∈ (A a).writes
          · rw [if_pos hxw]
            refine fp.1 x ?_
            intro b hb hxb
            exact hw.unshared a ha b (hpl b hb) (by rintro rfl; exact hap hb) x hxw trivial hxb
          · rw [if_neg hxw]
            rw [← runAtom_mem_of_not (A := A) (s := s1) hxw]
            refine (fq.1 x ?_).symm
            intro b hb hxb
            have hne : b ≠ a := by rintro rfl; exact haq hb
            have hf := hw.fed b (hql b hb) a ha hne x hxb trivial hx
            have := before_mem hadm.nodup hl (hadm.order b a hf ha)
            exact (List.nodup_append.1 hnd).2.2 b this b (by simp [hb]) rfl
        unfold Equation
        simp only []
        rw [← hread]
        refine ⟨hok, ?_, ?_⟩
        · rw [fq.2 a haq]
          simp [runAtom]
        · intro x hx
          rw [fq.1 x (fun b hb hxb => hw.unshared a ha b (hql b hb) (by rintro rfl; exact haq hb) x hx trivial hxb)]
          simp [runAtom, hx]
      · rw [if_neg hok] at hrun
        simp at hrun
  · intro hsol
    -- the state after a prefix of the schedule
    have key : ∀ (q p : List Nat), l = p ++ q → ∀ s1 : State V S,
        (∀ a, s1.st a = if a ∈ p then s'.st a else s.st a) →
        (∀ x, ((∃ a ∈ p, x ∈ (A a).writes) → s1.mem x = s'.mem x) ∧ ((∀ a ∈ p, x ∉ (A a).writes) → s1.mem x = s.mem x)) →
        run A q s1 = (s', true) := by
      intro q
      induction q with
      | nil =>
        intro p hl s1 h1 h2
        rw [List.append_nil] at hl
        subst hl
        rw [run]
        congr 1
        refine State.ext ?_ ?_
        · funext x
          by_cases hx : ∃ a ∈ l, x ∈ (A a).writes
          · exact (h2 x).1 hx
          · have hx' : ∀ a ∈ l, x ∉ (A a).writes := fun a ha h => hx ⟨a, ha, h⟩
            rw [(h2 x).2 hx', hsol.mem x (fun a ha => hx' a ((hm a).2 ha))]
        · funext a
          rw [h1 a]
          by_cases ha : a ∈ l
          · rw [if_pos ha]
          · rw [if_neg ha, hsol.st a (fun h => ha ((hm a).2 h))]
      | cons a q ih =>
        intro p hl s1 h1 h2
        have hnd := hadm.nodup
        rw [hl] at hnd
        have hap : a ∉ p := fun h => (List.nodup_append.1 hnd).2.2 a h a (by simp) rfl
        have haq : a ∉ q := (List.nodup_cons.1 (List.nodup_append.1 hnd).2.1).1
        have ha : a ∈ atoms := (hm a).1 (by rw [hl]; simp)
        have hpl : ∀ b ∈ p, b ∈ atoms := fun b hb => (hm b).1 (by rw [hl]; simp [hb])
        have hql : ∀ b ∈ q, b ∈ atoms := fun b hb => (hm b).1 (by rw [hl]; simp [hb])
        obtain ⟨e1, e2, e3⟩ := hsol.eqs a ha
        have hread : (A a).step (s1.st a) s1.mem =
            (A a).step (s.st a) (fun x => if x ∈ (A a).writes then s.mem x else s'.mem x) := by
          rw [h1 a, if_neg hap]
          refine (A a).locality _ _ _ ?_
          intro x hx
          by_cases hxw : x ∈ (A a).writes
          · rw [if_pos hxw]
            refine (h2 x).2 ?_
            intro b hb hxb
            exact hw.unshared a ha b (hpl b hb) (by rintro rfl; exact hap hb) x hxw trivial hxb
          · rw [if_neg hxw]
            by_cases hxp : ∃ b ∈ p, x ∈ (A b).writes
            · exact (h2 x).1 hxp
            · have hxp' : ∀ b ∈ p, x ∉ (A b).writes := fun b hb h => hxp ⟨b, hb, h⟩
              rw [(h2 x).2 hxp']
              symm
              refine hsol.mem x ?_
              intro b hb hxb
              have hbl := (hm b).2 hb
              rw [hl, List.mem_append, List.mem_cons] at hbl
              rcases hbl with hbp | rfl | hbq
              · exact hxp' b hbp hxb
              · exact hxw hxb
              · have hne : b ≠ a := by rintro rfl; exact haq hbq
                have hf := hw.fed b hb a ha hne x hxb trivial hx
                have := before_mem hadm.nodup hl (hadm.order b a hf ha)
                exact (List.nodup_append.1 hnd).2.2 b this b (by simp [hbq]) rfl
        have hra : runAtom A s1 a = (⟨fun x => if x ∈ (A a).writes then s'.mem x else s1.mem x,
            fun b => if b = a then s'.st a else s1.st b⟩, true) := by
          unfold runAtom
          simp only []
          rw [hread, e1]
          congr 1
          refine State.ext ?_ ?_
          · funext x
            by_cases hx : x ∈ (A a).writes
            · simp only [if_pos hx]; exact (e3 x hx).symm
            · simp only [if_neg hx]
          · funext b
            by_cases hb : b = a
            · simp only [if_pos hb]; exact e2.symm
            · simp only [if_neg hb]
        rw [run_cons, hra]
        simp only [if_true]
        refine ih (p ++ [a]) (by rw [hl]; simp) _ ?_ ?_
        · intro b
          by_cases hb : b = a
          · subst hb; simp
          · simp only [List.mem_append, List.mem_singleton, hb, or_false]
            exact h1 b
        · intro x
          by_cases hx : x ∈ (A a).writes
          · simp only [if_pos hx]
            refine ⟨fun _ => trivial, fun h => absurd hx (h a (by simp))⟩
          · simp only [if_neg hx]
            constructor
            · rintro ⟨b, hb, hxb⟩
              rcases List.mem_append.1 hb with hb | hb
              · exact (h2 x).1 ⟨b, hb, hxb⟩
              · rw [List.mem_singleton] at hb; subst hb; exact absurd hxb hx
            · intro h
              exact (h2 x).2 (fun b hb => h b (by simp [hb]))
    exact key l [] (by simp) s (by simp) (fun x => ⟨by simp, fun _ => rfl⟩)

/-- **C27.** The equations of a block have at most one solution if there is an admissible schedule. -/
theorem solution_unique {atoms : List Nat} {c : Conns} {l : List Nat} (hadm : Admissible atoms c l)
    (hw : AudioWired A (fun _ => True) atoms c) {s s1 s2 : State V S} (h1 : Solution A atoms s s1) (h2 : Solution A atoms s s2) : s1 = s2 := by
  have e1 := (run_iff_solution hadm hw s s1).2 h1
  have e2 := (run_iff_solution hadm hw s s2).2 h2
  rw [e1] at e2
  injection e2

/-- **C27.** In a flow with audio and parameter connections, no component reads stale audio signals: after the execution of
an admissible schedule, the audio equations of all components hold. -/
theorem run_audio_equations {audio : Nat → Prop} {atoms : List Nat} {c : Conns} {l : List Nat} (hadm : Admissible atoms c l)
    (hw : AudioWired A audio atoms c) {s s' : State V S} (hrun : run A l s = (s', true)) :
    ∀ a ∈ atoms, ∃ inputs, AudioEquation A audio s s' a inputs := by
  classical
  have hm : ∀ a, a ∈ l ↔ a ∈ atoms := fun a => hadm.perm.mem_iff
  intro a ha
  obtain ⟨p, q, hl⟩ := List.append_of_mem ((hm a).2 ha)
  have hnd := hadm.nodup
  rw [hl] at hnd
  have hap : a ∉ p := fun h => (List.nodup_append.1 hnd).2.2 a h a (by simp) rfl
  have haq : a ∉ q := (List.nodup_cons.1 (List.nodup_append.1 hnd).2.1).1
  have hpl : ∀ b ∈ p, b ∈ atoms := fun b hb => (hm b).1 (by rw [hl]; simp [hb])
  have hql : ∀ b ∈ q, b ∈ atoms := fun b hb => (hm b).1 (by rw [hl]; simp [hb])
  rw [hl, run_append] at hrun
  have fp := run_frame (A := A) p s
  generalize run A p s = r1 at hrun fp
  obtain ⟨s1, b1⟩ := r1
  cases b1 with
  | false => simp at hrun
  | true =>
    simp only [if_true] at hrun
    rw [run_cons] at hrun
    by_cases hok : (runAtom A s1 a).2 = true
    · rw [if_pos hok] at hrun
      have fq := run_frame (A := A) q (runAtom A s1 a).1
      rw [hrun] at fq
      have hst : s1.st a = s.st a := fp.2 a hap
      refine ⟨fun x => if audio x then (if x ∈ (A a).writes then s.mem x else s'.mem x) else s1.mem x, ?_⟩
      have hread : (A a).step (s.st a) (fun x => if audio x then (if x ∈ (A a).writes then s.mem x else s'.mem x)
          else s1.mem x) = (A a).step (s1.st a) s1.mem := by
        rw [hst]
        refine (A a).locality _ _ _ ?_
        intro x hx
        by_cases hau : audio x
        · rw [if_pos hau]
          by_cases hxw : x ∈ (A a).writes
          · rw [if_pos hxw]
            refine (fp.1 x ?_).symm
            intro b hb hxb
            exact hw.unshared a ha b (hpl b hb) (by rintro rfl; exact hap hb) x hxw hau hxb
          · rw [if_neg hxw]
            rw [← runAtom_mem_of_not (A := A) (s := s1) hxw]
            refine fq.1 x ?_
            intro b hb hxb
            have hne : b ≠ a := by rintro rfl; exact haq hb
            have hf := hw.fed b (hql b hb) a ha hne x hxb hau hx
            have := before_mem hadm.nodup hl (hadm.order b a hf ha)
            exact (List.nodup_append.1 hnd).2.2 b this b (by simp [hb]) rfl
        · rw [if_neg hau]
      unfold AudioEquation
      rw [hread]
      refine ⟨fun x hx => by simp only [if_pos hx], hok, ?_, ?_⟩
      · rw [fq.2 a haq]
        simp [runAtom]
      · intro x hx hau
        rw [fq.1 x (fun b hb hxb => hw.unshared a ha b (hql b hb) (by rintro rfl; exact haq hb) x hx hau hxb)]
        simp [runAtom, hx]
    · rw [if_neg hok] at hrun
      simp at hrun

/-! ## Independence of the schedule, including parameter connections -/

/-- Two components without common written cells can be exchanged. -/
theorem runAtom_comm {a b : Nat} (hne : a ≠ b) (hab : ¬ Conflict A a b) (hba : ¬ Conflict A b a) (s : State V S)
    (h1 : (runAtom A s a).2 = true) (h2 : (runAtom A (runAtom A s a).1 b).2 = true) :
    (runAtom A s b).2 = true ∧ (runAtom A (runAtom A s b).1 a).2 = true ∧
      (runAtom A (runAtom A s b).1 a).1 = (runAtom A (runAtom A s a).1 b).1 := by
  have hstepb : (A b).step ((runAtom A s a).1.st b) (runAtom A s a).1.mem = (A b).step (s.st b) s.mem := by
    rw [runAtom_st_of_ne hne.symm]
    refine (A b).locality _ _ _ ?_
    intro x hx
    exact runAtom_mem_of_not (fun h => hab ⟨x, h, Or.inl hx⟩)
  have hstepa : (A a).step ((runAtom A s b).1.st a) (runAtom A s b).1.mem = (A a).step (s.st a) s.mem := by
    rw [runAtom_st_of_ne hne]
    refine (A a).locality _ _ _ ?_
    intro x hx
    exact runAtom_mem_of_not (fun h => hba ⟨x, h, Or.inl hx⟩)
  have hb2 : (runAtom A s b).2 = true := by
    have : (runAtom A (runAtom A s a).1 b).2 = (runAtom A s b).2 := by
      show ((A b).step _ _).2.2 = ((A b).step _ _).2.2
      rw [hstepb]
    rw [← this]; exact h2
  have ha2 : (runAtom A (runAtom A s b).1 a).2 = true := by
    have : (runAtom A (runAtom A s b).1 a).2 = (runAtom A s a).2 := by
      show ((A a).step _ _).2.2 = ((A a).step _ _).2.2
      rw [hstepa]
    rw [this]; exact h1
  refine ⟨hb2, ha2, ?_⟩
  refine State.ext ?_ ?_
  · funext x
    show (if x ∈ (A a).writes then ((A a).step _ _).2.1 x else (if x ∈ (A b).writes then _ else _)) =
      (if x ∈ (A b).writes then ((A b).step _ _).2.1 x else (if x ∈ (A a).writes then _ else _))
    rw [hstepa, hstepb]
    by_cases hxa : x ∈ (A a).writes
    · have hxb : x ∉ (A b).writes := fun h => hab ⟨x, hxa, Or.inr h⟩
      rw [if_pos hxa, if_neg hxb, if_pos hxa]
    · rw [if_neg hxa, if_neg hxa]
  · funext y
    show (if y = a then ((A a).step _ _).1 else (if y = b then _ else _)) =
      (if y = b then ((A b).step _ _).1 else (if y = a then _ else _))
    rw [hstepa, hstepb]
    by_cases hya : y = a
    · subst hya; rw [if_pos rfl, if_neg hne, if_pos rfl]
    · rw [if_neg hya, if_neg hya]

/-- Moving a component to the front. -/
theorem run_move {a : Nat} : ∀ (u v : List Nat) (s s' : State V S), a ∉ u →
    (∀ x ∈ u, ¬ Conflict A a x ∧ ¬ Conflict A x a) → run A (u ++ a :: v) s = (s', true) →
    run A (a :: (u ++ v)) s = (s', true) := by
  intro u
  induction u with
  | nil => intro v s s' _ _ h; exact h
  | cons x u ih =>
    intro v s s' hau hc h
    rw [List.cons_append, run_cons] at h
    by_cases hx : (runAtom A s x).2 = true
    · rw [if_pos hx] at h
      have h' := ih v _ s' (fun hh => hau (by simp [hh])) (fun y hy => hc y (by simp [hy])) h
      rw [run_cons] at h'
      by_cases hax : (runAtom A (runAtom A s x).1 a).2 = true
      · rw [if_pos hax] at h'
        have hne : x ≠ a := by rintro rfl; exact hau (by simp)
        obtain ⟨c1, c2, c3⟩ := runAtom_comm hne (hc x (by simp)).2 (hc x (by simp)).1 s hx hax
        rw [run_cons, if_pos c1, List.cons_append, run_cons, if_pos c2, c3]
        exact h'
      · rw [if_neg hax] at h'
        simp at h'
    · rw [if_neg hx] at h
      simp at h

/-- Orders of execution that respect a relation. -/
theorem run_reorder {R : Nat → Nat → Prop} : ∀ (l l' : List Nat), l.Nodup → l'.Perm l →
    (∀ a ∈ l, ∀ b ∈ l, a ≠ b → Conflict A a b → R a b ∨ R b a) →
    (∀ a b, R a b → a ∈ l → b ∈ l → Before l a b) → (∀ a b, R a b → a ∈ l → b ∈ l → Before l' a b) →
    ∀ s s' : State V S, run A l' s = (s', true) → run A l s = (s', true) := by
  intro l
  induction l with
  | nil =>
    intro l' _ hp _ _ _ s s' h
    rw [List.Perm.eq_nil hp] at h
    exact h
  | cons a t ih =>
    intro l' hnd hp hord hb hb' s s' h
    have hnd' : l'.Nodup := hp.nodup_iff.2 hnd
    obtain ⟨u, v, hl'⟩ := List.append_of_mem (hp.mem_iff.2 (List.mem_cons_self (a := a) (l := t)))
    have hnd2 := hnd'
    rw [hl'] at hnd2
    have hau : a ∉ u := fun h => (List.nodup_append.1 hnd2).2.2 a h a (by simp) rfl
    have hat : a ∉ t := (List.nodup_cons.1 hnd).1
    have hmem : ∀ x, x ∈ l' ↔ x ∈ a :: t := fun x => hp.mem_iff
    have huv : ∀ x ∈ u, x ∈ a :: t := fun x hx => (hmem x).1 (by rw [hl']; simp [hx])
    have hindep : ∀ x ∈ u, ¬ R a x ∧ ¬ R x a := by
      intro x hx
      have hxa : x ≠ a := by rintro rfl; exact hau hx
      constructor
      · intro hr
        -- `a` before `x` in `l'`
        obtain ⟨p, q, hup⟩ := List.append_of_mem hx
        have e : l' = p ++ x :: (q ++ a :: v) := by rw [hl', hup]; simp
        have := before_mem hnd' e (hb' a x hr (by simp) (huv x hx))
        exact hau (by rw [hup]; simp [this])
      · intro hr
        have := before_mem (p := []) (q := t) hnd rfl (hb x a hr (huv x hx) (by simp))
        cases this
    have h1 : run A (a :: (u ++ v)) s = (s', true) := by
      refine run_move u v s s' hau ?_ (by rw [← hl']; exact h)
      intro x hx
      have hxa : x ≠ a := by rintro rfl; exact hau hx
      refine ⟨fun hc => ?_, fun hc => ?_⟩
      · rcases hord a (by simp) x (huv x hx) hxa.symm hc with hr | hr
        · exact (hindep x hx).1 hr
        · exact (hindep x hx).2 hr
      · rcases hord x (huv x hx) a (by simp) hxa hc with hr | hr
        · exact (hindep x hx).2 hr
        · exact (hindep x hx).1 hr
    rw [run_cons] at h1 ⊢
    by_cases hok : (runAtom A s a).2 = true
    · rw [if_pos hok] at h1 ⊢
      have hperm : (u ++ v).Perm t := by
        have : (a :: (u ++ v)).Perm (a :: t) := by
          refine List.Perm.trans ?_ hp
          rw [hl']
          exact List.perm_middle.symm
        exact List.Perm.cons_inv this
      refine ih (u ++ v) (List.nodup_cons.1 hnd).2 hperm (fun x hx y hy => hord x (by simp [hx]) y (by simp [hy])) ?_ ?_ _ _ h1
      · intro x y hr hx hy
        obtain ⟨p, q, r, e⟩ := hb x y hr (by simp [hx]) (by simp [hy])
        cases p with
        | nil =>
          simp only [List.nil_append, List.cons_append, List.cons.injEq] at e
          obtain ⟨rfl, _⟩ := e
          exact absurd hx hat
        | cons w p =>
          simp only [List.cons_append, List.cons.injEq] at e
          exact ⟨p, q, r, by simpa using e.2⟩
      · intro x y hr hx hy
        have hbx := hb' x y hr (by simp [hx]) (by simp [hy])
        have hxa : x ≠ a := by rintro rfl; exact hat hx
        have hya : y ≠ a := by rintro rfl; exact hat hy
        -- remove `a` from the list
        obtain ⟨p, q, r, e⟩ := hbx
        have hf : (l'.filter fun z => z ≠ a) = u ++ v := by
          rw [hl', List.filter_append, List.filter_cons]
          simp only [ne_eq, not_true_eq_false, decide_false, Bool.false_eq_true, if_false]
          rw [List.filter_eq_self.2, List.filter_eq_self.2]
          · intro z hz
            have : z ≠ a := by
              rintro rfl
              exact (List.nodup_cons.1 (List.nodup_append.1 hnd2).2.1).1 hz
            simp [this]
          · intro z hz
            have : z ≠ a := by rintro rfl; exact hau hz
            simp [this]
        refine ⟨p.filter (fun z => z ≠ a), q.filter (fun z => z ≠ a), r.filter (fun z => z ≠ a), ?_⟩
        rw [← hf, e]
        simp [List.filter_append, hxa, hya]
    · rw [if_neg hok] at h1
      simp at h1

/-- **C27.** Any two admissible schedules have the same effect, provided only that components that share a cell which one
of them writes are connected. This includes parameter connections, whose contents are changed by both ends. A schedule
fails iff the other one fails. -/
theorem schedule_independent {atoms : List Nat} {c : Conns} {l l' : List Nat} (h : Admissible atoms c l)
    (h' : Admissible atoms c l') (ho : Ordered A atoms c) (s s' : State V S) :
    run A l s = (s', true) ↔ run A l' s = (s', true) := by
  have main : ∀ {l l' : List Nat}, Admissible atoms c l → Admissible atoms c l' → run A l' s = (s', true) →
      run A l s = (s', true) := by
    intro l l' h h'
    refine run_reorder (R := fun a b => Feeds c a b) l l' h.nodup (h'.perm.trans h.perm.symm) ?_ ?_ ?_ s s'
    · intro a ha b hb
      exact ho a (h.perm.mem_iff.1 ha) b (h.perm.mem_iff.1 hb)
    · intro a b hr _ hb
      exact h.order a b hr (h.perm.mem_iff.1 hb)
    · intro a b hr _ hb
      exact h'.order a b hr (h.perm.mem_iff.1 hb)
  exact ⟨main h' h, main h h'⟩

/-! ## Wired flows -/

section
variable {env : Layout.Env} {conns : List Layout.Conn} {l : Layout.Result} {own : Layout.PortRef → Owner}
  {atoms : List Nat} {c : Conns}

theorem written_unique (henv : Layout.EnvOK env) (hper : 0 < env.period) (hC : Layout.Correct env conns l)
    {ch ch' : Layout.Chan} (h : Layout.Written env conns l ch) (h' : Layout.Written env conns l ch') {x : Nat}
    (hx : l.addr ch = some x) (hx' : l.addr ch' = some x) : ch = ch' := by
  by_contra hne
  have hb : ∀ ch : Layout.Chan, 0 < Layout.bytes env ch := fun ch => Nat.mul_pos hper (henv.size _).1
  have := hb ch
  have := hb ch'
  rcases hC.disjoint ch ch' h h' hne x x hx hx' with h1 | h1 <;> omega

theorem written_lt (henv : Layout.EnvOK env) (hper : 0 < env.period) (hC : Layout.Correct env conns l)
    {ch : Layout.Chan} (h : Layout.Written env conns l ch) {x : Nat} (hx : l.addr ch = some x) : x < l.pool := by
  obtain ⟨a, ha, hle, _⟩ := hC.inPool ch h
  rw [hx] at ha
  obtain rfl := Option.some.inj ha
  have : 0 < Layout.bytes env ch := Nat.mul_pos hper (henv.size _).1
  omega

theorem routing_unique (hC : Layout.Correct env conns l) {ρ ρ' : Layout.Routing} (h : ρ ∈ l.routings) (h' : ρ' ∈ l.routings)
    (he : ρ.recv = ρ'.recv) : ρ = ρ' := List.inj_on_of_nodup_map hC.copies.1 h h' he

/-- Every final connection leads from a written channel to a channel with the same buffer. -/
theorem conn_addr (hwf : Layout.WellFormed env conns) (hC : Layout.Correct env conns l) {d : Layout.Chan × Layout.Chan}
    (hd : d ∈ l.conns) : Layout.Written env conns l d.1 ∧ ∃ x, l.addr d.1 = some x ∧ l.addr d.2 = some x := by
  rcases hC.conns d hd with ⟨k, hk, hdir, rfl⟩ | ⟨k, hk, ρ, hρ, hr, j, hj, hd'⟩
  · obtain ⟨⟨x, h1, h2⟩, _⟩ := hdir
    exact ⟨Or.inl ⟨k, hk, rfl, hwf.sendIdx k hk⟩, x, h1, h2⟩
  · obtain ⟨_, j', hj', _, ⟨x, h1, h2⟩, ⟨y, h3, h4⟩, _⟩ := (hC.copies.2 ρ hρ).2.2 k hk hr.symm
    rw [hj] at hj'
    obtain rfl := Option.some.inj hj'
    rcases hd' with rfl | rfl
    · exact ⟨Or.inl ⟨k, hk, rfl, hwf.sendIdx k hk⟩, x, h1, h2⟩
    · refine ⟨Or.inr ⟨ρ, hρ, rfl, ?_⟩, y, h3, h4⟩
      exact (List.getElem?_eq_some_iff.1 hj).1

theorem Wired.audioWired (henv : Layout.EnvOK env) (hper : 0 < env.period) (hwf : Layout.WellFormed env conns)
    (hC : Layout.Correct env conns l) (hW : Wired env conns l own A atoms c) :
    AudioWired A (fun x => x < l.pool) atoms c := by
  constructor
  · intro a ha b hb hne x hx hlt hxb
    obtain ⟨ch, h1, h2, h3⟩ := hW.writes a ha x hx hlt
    obtain ⟨ch', h1', h2', h3'⟩ := hW.writes b hb x hxb hlt
    obtain rfl := written_unique henv hper hC h1 h1' h3 h3'
    rw [h2] at h2'
    exact hne (by injection h2')
  · intro a ha b hb hne x hx hlt hxb
    obtain ⟨ch, h1, h2, h3⟩ := hW.writes a ha x hx hlt
    rcases hW.reads b hb x hxb hlt with hxw | ⟨d, hd, h4, h5⟩
    · obtain ⟨ch', h1', h2', h3'⟩ := hW.writes b hb x hxw hlt
      obtain rfl := written_unique henv hper hC h1 h1' h3 h3'
      rw [h2] at h2'
      exact absurd (by injection h2') hne
    · obtain ⟨h6, y, h7, h8⟩ := conn_addr hwf hC hd
      rw [h5] at h8
      obtain rfl := Option.some.inj h8
      obtain rfl := written_unique henv hper hC h1 h6 h3 h7
      refine Or.inl ⟨(own d.1.1, own d.2.1), ?_, h2, by rw [h4]⟩
      rw [hW.audio]
      exact List.mem_map.2 ⟨d, hd, rfl⟩

theorem Wired.ordered (henv : Layout.EnvOK env) (hper : 0 < env.period) (hwf : Layout.WellFormed env conns)
    (hC : Layout.Correct env conns l) (hW : Wired env conns l own A atoms c) : Ordered A atoms c := by
  have hA := hW.audioWired henv hper hwf hC
  rintro a ha b hb hne ⟨x, hx, hxb⟩
  by_cases hlt : x < l.pool
  · rcases hxb with hxb | hxb
    · exact Or.inl (hA.fed a ha b hb hne x hx hlt hxb)
    · exact absurd hxb (hA.unshared a ha b hb hne x hx hlt)
  · exact hW.params a ha b hb hne x hx (by omega) hxb

/-- No component is scheduled before itself. -/
theorem not_before_self {l : List Nat} {a : Nat} (hn : l.Nodup) : ¬ Before l a a := by
  rintro ⟨x, y, z, rfl⟩
  have := (List.nodup_append.1 hn).2.2 a (by simp) a (by simp)
  exact this rfl

/-- In the final state every receive channel holds the signal of the channel connected to it. -/
theorem received_final (henv : Layout.EnvOK env) (hper : 0 < env.period) (hwf : Layout.WellFormed env conns)
    (hC : Layout.Correct env conns l) (hW : Wired env conns l own A atoms c) {sched : List Nat}
    (hadm : Admissible atoms c sched) {s s' : State V S} (hrun : run A sched s = (s', true))
    {κ : Layout.Conn} (hκ : κ ∈ conns) {x y : Nat} (hx : l.addr (.orig κ.1.1, κ.1.2) = some x)
    (hy : l.addr (.orig κ.2.1, κ.2.2) = some y) : s'.mem y = s'.mem x := by
  rcases hC.received κ hκ with ⟨⟨a, h1, h2⟩, _⟩ | ⟨ρ, hρ, hr, j, hj, _, ⟨u, h1, h2⟩, ⟨w, h3, h4⟩, h5, h6⟩
  · rw [hx] at h1; rw [hy] at h2
    obtain rfl := Option.some.inj h1
    obtain rfl := Option.some.inj h2
    rfl
  · rw [hx] at h1; rw [hy] at h4
    obtain rfl := Option.some.inj h1
    obtain rfl := Option.some.inj h4
    obtain ⟨a, ha, o1, o2, o3, hcopy⟩ := hW.copies ρ hρ
    obtain ⟨c1, c2, c3⟩ := hcopy κ.2.2 j x y hj h2 h3
    obtain ⟨inputs, e1, e2, e3, e4⟩ := run_audio_equations hadm (hW.audioWired henv hper hwf hC) hrun a ha
    have wy : Layout.Written env conns l (.routeOut ρ.recv, κ.2.2) :=
      Or.inr ⟨ρ, hρ, rfl, (List.getElem?_eq_some_iff.1 hj).1⟩
    have wx : Layout.Written env conns l (.orig κ.1.1, κ.1.2) := Or.inl ⟨κ, hκ, rfl, hwf.sendIdx κ hκ⟩
    have hxlt := written_lt henv hper hC wx hx
    rw [e4 y c2 (written_lt henv hper hC wy h3), c3, e1 x hxlt, if_neg]
    intro hxw
    obtain ⟨ch, h7, h8, h9⟩ := hW.writes a ha x hxw hxlt
    obtain rfl := written_unique henv hper hC h7 wx h9 hx
    rcases o3 _ h8 with h | h <;> simp at h

/-! ## Copying from and to the user's memory -/

theorem capture_ok {F : Type*} {n : Nat} (k : Codec F V n) (v : View) (user : Nat → F) :
    ∀ (xs : List Nat) (ch : Nat) (m : Nat → V), xs.Nodup →
      ∃ m', capture k v user ch (xs.map some) m = .ok m' ∧ (∀ y, y ∉ xs → m' y = m y) ∧
        ∀ j x, xs[j]? = some x → k.dec (m' x) = v.block n user (ch + j) := by
  intro xs
  induction xs with
  | nil => intro ch m _; exact ⟨m, rfl, fun _ _ => rfl, by simp⟩
  | cons x xs ih =>
    intro ch m hn
    rw [List.nodup_cons] at hn
    obtain ⟨m', h1, h2, h3⟩ := ih (ch + 1) (fun y => if y = x then k.enc (v.block n user ch) else m y) hn.2
    refine ⟨m', by simpa [capture] using h1, ?_, ?_⟩
    · intro y hy
      rw [List.mem_cons, not_or] at hy
      rw [h2 y hy.2, if_neg hy.1]
    · intro j z hj
      cases j with
      | zero =>
        simp only [List.getElem?_cons_zero, Option.some.injEq] at hj
        subst hj
        rw [h2 x hn.1, if_pos rfl, k.dec_enc]
        rfl
      | succ j =>
        rw [List.getElem?_cons_succ] at hj
        rw [h3 j z hj]
        congr 1
        omega

theorem foldl_store {F : Type*} {n : Nat} (addr stride : Nat) (b : Fin n → F) :
    ∀ (is : List (Fin n)) (user : Nat → F),
      (∀ y, (∀ i ∈ is, y ≠ addr + i * stride) →
        (is.foldl (fun u (i : Fin n) => fun y => if y = addr + i * stride then b i else u y) user) y = user y) ∧
      ((∀ i i' : Fin n, addr + i * stride = addr + i' * stride → i = i') → ∀ i ∈ is,
        (is.foldl (fun u (i : Fin n) => fun y => if y = addr + i * stride then b i else u y) user) (addr + i * stride) = b i) := by
  intro is
  induction is with
  | nil => intro user; exact ⟨fun _ _ => rfl, by simp⟩
  | cons j is ih =>
    intro user
    obtain ⟨h1, h2⟩ := ih (fun y => if y = addr + j * stride then b j else user y)
    constructor
    · intro y hy
      rw [List.foldl_cons, h1 y (fun i hi => hy i (by simp [hi])), if_neg (hy j (by simp))]
    · intro hinj i hi
      rw [List.foldl_cons]
      by_cases hmem : i ∈ is
      · exact h2 hinj i hmem
      · have hij : i = j := by
          rcases List.mem_cons.1 hi with h | h
          · exact h
          · exact absurd h hmem
        subst hij
        rw [h1 _ (fun i' hi' he => hmem (by rw [hinj _ _ he]; exact hi')), if_pos rfl]

theorem playback_ok {F : Type*} {n : Nat} (k : Codec F V n) (v : View) (m : Nat → V) :
    ∀ (xs : List Nat) (ch : Nat) (user : Nat → F),
      (∀ j < xs.length, ∀ j' < xs.length, ∀ i < n, ∀ i' < n,
        v.base (ch + j) + i * v.stride = v.base (ch + j') + i' * v.stride → j = j' ∧ i = i') →
      ∃ u, playback k v m ch (xs.map some) user = .ok u ∧
        (∀ y, (∀ j < xs.length, ∀ i < n, y ≠ v.base (ch + j) + i * v.stride) → u y = user y) ∧
        ∀ j x, xs[j]? = some x → ∀ i : Fin n, u (v.base (ch + j) + i * v.stride) = k.dec (m x) i := by
  intro xs
  induction xs with
  | nil => intro ch user _; exact ⟨user, rfl, fun _ _ => rfl, by simp⟩
  | cons x xs ih =>
    intro ch user hd
    obtain ⟨u, h1, h2, h3⟩ := ih (ch + 1) (store (v.base ch) v.stride (k.dec (m x)) user) (by
      intro j hj j' hj' i hi i' hi' he
      have := hd (j + 1) (by simpa using hj) (j' + 1) (by simpa using hj') i hi i' hi' (by
        rw [show ch + (j + 1) = ch + 1 + j by omega, show ch + (j' + 1) = ch + 1 + j' by omega]; exact he)
      omega)
    have hst := foldl_store (v.base ch) v.stride (k.dec (m x)) (List.finRange n) user
    refine ⟨u, by simpa [playback] using h1, ?_, ?_⟩
    · intro y hy
      rw [h2 y]
      · refine hst.1 y ?_
        intro i _
        have := hy 0 (by simp) i i.2
        simpa using this
      · intro j hj i hi
        have := hy (j + 1) (by simpa using hj) i hi
        rwa [show ch + (j + 1) = ch + 1 + j by omega] at this
    · intro j z hj i
      cases j with
      | zero =>
        simp only [List.getElem?_cons_zero, Option.some.injEq] at hj
        subst hj
        rw [Nat.add_zero, h2]
        · refine hst.2 ?_ i (List.mem_finRange i)
          intro i1 i2 he
          exact Fin.ext (hd 0 (by simp) 0 (by simp) i1 i1.2 i2 i2.2 (by simpa using he)).2
        · intro j hj i' hi' he
          have := (hd 0 (by simp) (j + 1) (by simpa using hj) i i.2 i' hi' (by
            rw [show ch + (j + 1) = ch + 1 + j by omega]; simpa using he)).1
          omega
      | succ j =>
        rw [List.getElem?_cons_succ] at hj
        rw [show ch + (j + 1) = ch + 1 + j by omega]
        exact h3 j z hj i

/-! ## Channel numbers -/

/-- The channels of external ports in the order of their numbers. -/
def pairs (env : Layout.Env) : List Nat → List (Nat × Nat)
  | [] => []
  | p :: ps => (List.range (env.width p)).map (fun i => (p, i)) ++ pairs env ps

theorem mem_pairs {ps : List Nat} {c : Nat × Nat} : c ∈ pairs env ps ↔ c.1 ∈ ps ∧ c.2 < env.width c.1 := by
  induction ps with
  | nil => simp [pairs]
  | cons p ps ih =>
    simp only [pairs, List.mem_append, List.mem_map, List.mem_range, ih, List.mem_cons]
    constructor
    · rintro (⟨i, hi, rfl⟩ | ⟨h1, h2⟩)
      · exact ⟨Or.inl rfl, hi⟩
      · exact ⟨Or.inr h1, h2⟩
    · rintro ⟨rfl | h1, h2⟩
      · exact Or.inl ⟨c.2, h2, rfl⟩
      · exact Or.inr ⟨h1, h2⟩

theorem number_pairs {ps : List Nat} {p i ch : Nat} (h : number env ps p i = some ch) : (pairs env ps)[ch]? = some (p, i) := by
  induction ps generalizing ch with
  | nil => simp [number] at h
  | cons q ps ih =>
    rw [number] at h
    by_cases hq : q = p
    · subst hq
      rw [if_pos rfl] at h
      by_cases hi : i < env.width q
      · rw [if_pos hi, Option.some.injEq] at h
        subst h
        rw [pairs, List.getElem?_append_left (by simpa using hi)]
        simp [hi]
      · rw [if_neg hi] at h; cases h
    · rw [if_neg hq] at h
      obtain ⟨n, hn, rfl⟩ := Option.map_eq_some_iff.1 h
      rw [pairs, List.getElem?_append_right (by simp)]
      simpa using ih hn

theorem pairs_nodup {ps : List Nat} (h : ps.Nodup) : (pairs env ps).Nodup := by
  induction ps with
  | nil => simp [pairs]
  | cons p ps ih =>
    rw [List.nodup_cons] at h
    rw [pairs, List.nodup_append]
    refine ⟨?_, ih h.2, ?_⟩
    · exact List.Nodup.map (fun a b hab => by simpa using hab) List.nodup_range
    · rintro ⟨a, b⟩ h1 ⟨a', b'⟩ h2 he
      simp only [List.mem_map, List.mem_range] at h1
      obtain ⟨j, hj, hj'⟩ := h1
      rw [mem_pairs] at h2
      cases hj'
      cases he
      exact h.1 h2.1

theorem channelList_pairs (name : Nat → String) (ps : List Nat) :
    channelList (ps.map (extPort env l name)) = (pairs env ps).map fun c => l.addr (.orig c.1, c.2) := by
  induction ps with
  | nil => rfl
  | cons p ps ih =>
    rw [List.map_cons, channelList, ih, pairs, List.map_append, List.map_map]
    congr 1
    have hw : (extPort env l name p).width = env.width p := by
      unfold extPort; split <;> rfl
    rw [hw]
    refine List.map_congr_left ?_
    intro i _
    unfold extPort Layout.Result.addr
    simp only [Function.comp]
    split
    · next g hg => rw [hg]; rfl
    · next hg => rw [hg]; rfl

/-- A list of existing values. -/
theorem exists_values {α β : Type*} (f : α → Option β) : ∀ (xs : List α), (∀ x ∈ xs, ∃ y, f x = some y) →
    ∃ ys : List β, xs.map f = ys.map some := by
  intro xs
  induction xs with
  | nil => intro _; exact ⟨[], rfl⟩
  | cons x xs ih =>
    intro h
    obtain ⟨ys, hys⟩ := ih (fun z hz => h z (by simp [hz]))
    obtain ⟨y, hy⟩ := h x (by simp)
    exact ⟨y :: ys, by simp [hys, hy]⟩

end

end Visr.Execute
