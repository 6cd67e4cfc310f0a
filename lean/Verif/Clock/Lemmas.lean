import Mathlib.Data.List.Induction
import Mathlib.Tactic.Linarith
import Mathlib.Tactic.SplitIfs
import Verif.Clock.Spec

/-! # Lemmas about the clock -/

namespace Visr.Clock
open Visr

theorem run_append (s : State) (a b : List Op) : run s (a ++ b) = (run s a).bind fun s' => run s' b := by
  induction a generalizing s with
  | nil => rfl
  | cons o os ih =>
    simp only [List.cons_append, run]
    cases step s o with
    | ok s' => exact ih s'
    | throw e => rfl
    | ub => rfl

theorem run_snoc {s s'' : State} {a : List Op} {o : Op} (h : run s (a ++ [o]) = .ok s'') :
    ∃ s', run s a = .ok s' ∧ step s' o = .ok s'' := by
  rw [run_append] at h
  cases hr : run s a with
  | ok s' =>
    rw [hr] at h
    simp only [Outcome.bind, run] at h
    refine ⟨s', rfl, ?_⟩
    cases hs : step s' o with
    | ok t => rw [hs] at h; simpa using h
    | throw e => rw [hs] at h; cases h
    | ub => rw [hs] at h; cases h
  | throw e => rw [hr] at h; cases h
  | ub => rw [hr] at h; cases h

theorem tops_snoc (l : List (Context × Option Nat)) (x : Context × Option Nat) :
    tops (l ++ [x]) = tops l ++ [match x.2 with
      | none => (tops l).length
      | some p => (tops l).getD p 0] := by
  unfold tops; rw [List.foldl_append]; rfl

theorem tops_length (l : List (Context × Option Nat)) : (tops l).length = l.length := by
  induction l using List.reverseRecOn with
  | nil => rfl
  | append_singleton l x ih => rw [tops_snoc]; simp [ih]

theorem tops_prefix (l m : List (Context × Option Nat)) : tops l <+: tops (l ++ m) := by
  induction m using List.reverseRecOn with
  | nil => simp
  | append_singleton m x ih =>
    rw [← List.append_assoc, tops_snoc]
    exact ih.trans (List.prefix_append _ _)

theorem getElem?_of_prefix {α : Type*} {a b : List α} (h : a <+: b) {i : Nat} {x : α} (hx : a[i]? = some x) :
    b[i]? = some x := by
  obtain ⟨c, rfl⟩ := h
  rw [List.getElem?_append_left ?_]
  · exact hx
  · exact (List.getElem?_eq_some_iff.mp hx).1

theorem created_append (a b : List Op) : created (a ++ b) = created a ++ created b := List.filterMap_append

theorem flowsOf_append (a b : List Op) : flowsOf (a ++ b) = flowsOf a ++ flowsOf b := List.filterMap_append

theorem inTree_mono {a : List Op} (b : List Op) {r c : Nat} (h : InTree a r c) : InTree (a ++ b) r c := by
  unfold InTree at *
  rw [created_append]
  exact getElem?_of_prefix (tops_prefix _ _) h

/-- The relation between the state and the history. -/
structure Inv (s : State) (ops : List Op) : Prop where
  flows : s.flows = flowsOf ops
  len : s.comps.length = (created ops).length
  fl : ∀ c ∈ s.flows, c < s.comps.length
  top : ∀ c, c < s.comps.length → ∃ r x ctx k, InTree ops r c ∧ InTree ops r r ∧ (created ops)[r]? = some (ctx, none) ∧
    s.comps[c]? = some x ∧ s.counters[x.2]? = some k ∧ k.context = ctx
  same : ∀ c d r r' x y, InTree ops r c → InTree ops r' d → s.comps[c]? = some x → s.comps[d]? = some y →
    (x.2 = y.2 ↔ r = r')

theorem InTree.lt {ops : List Op} {r c : Nat} (h : InTree ops r c) : c < (created ops).length := by
  have := (List.getElem?_eq_some_iff.mp h).1
  rwa [tops_length] at this

theorem InTree.unique {ops : List Op} {r r' c : Nat} (h : InTree ops r c) (h' : InTree ops r' c) : r = r' := by
  unfold InTree at *; rw [h] at h'; exact Option.some.inj h'

/-- An operation which adds no component keeps the trees. -/
theorem inTree_same {a : List Op} {o : Op} (h : created [o] = []) (r c : Nat) : InTree (a ++ [o]) r c ↔ InTree a r c := by
  unfold InTree; rw [created_append, h, List.append_nil]

theorem inv_modify {s : State} {ops : List Op} (h : Inv s ops) {o : Op} (ho : created [o] = []) (g : Counter → Counter)
    (hg : ∀ k, (g k).context = k.context) (i : Nat) (fl : List Nat) (hf : fl = flowsOf (ops ++ [o]))
    (hl : ∀ c ∈ fl, c < s.comps.length) :
    Inv { s with counters := s.counters.modify i g, flows := fl } (ops ++ [o]) := by
  have hc : created (ops ++ [o]) = created ops := by rw [created_append, ho, List.append_nil]
  refine ⟨hf, by rw [hc]; exact h.len, hl, ?_, ?_⟩
  · intro c hlt
    obtain ⟨r, x, ctx, k, h1, h2, h3, h4, h5, h6⟩ := h.top c hlt
    refine ⟨r, x, ctx, if i = x.2 then g k else k, (inTree_same ho _ _).mpr h1, (inTree_same ho _ _).mpr h2,
      by rw [hc]; exact h3, h4, ?_, ?_⟩
    · simp only [List.getElem?_modify, h5, Option.map_eq_map, Option.map_some]
    · split_ifs
      · rw [hg]; exact h6
      · exact h6
  · intro c d r r' x y h1 h2 h3 h4
    exact h.same c d r r' x y ((inTree_same ho _ _).mp h1) ((inTree_same ho _ _).mp h2) h3 h4

theorem modify_id {α : Type*} (l : List α) (i : Nat) : l.modify i id = l := by
  apply List.ext_getElem?
  intro j
  rw [List.getElem?_modify]
  cases l[j]? with
  | none => rfl
  | some x => simp

theorem inv_step {s s' : State} {ops : List Op} {o : Op} (h : Inv s ops) (hs : step s o = .ok s') : Inv s' (ops ++ [o]) := by
  cases o with
  | component context parent =>
    have hf : flowsOf (ops ++ [Op.component context parent]) = flowsOf ops := by
      rw [flowsOf_append]; simp [flowsOf]
    have hc : created (ops ++ [Op.component context parent]) = created ops ++ [(context, parent)] := by
      rw [created_append]; simp [created]
    have ht : tops (created (ops ++ [Op.component context parent])) = tops (created ops) ++ [match parent with
      | none => (tops (created ops)).length
      | some p => (tops (created ops)).getD p 0] := by rw [hc, tops_snoc]
    have hn : (tops (created ops)).length = s.comps.length := by rw [tops_length, h.len]
    have old : ∀ r c, InTree ops r c → InTree (ops ++ [Op.component context parent]) r c := fun r c => inTree_mono _
    have inv : ∀ r c, c < s.comps.length → InTree (ops ++ [Op.component context parent]) r c → InTree ops r c := by
      intro r c hlt hi
      unfold InTree at *
      rw [ht, List.getElem?_append_left (by omega)] at hi
      exact hi
    cases parent with
    | none =>
      simp only [step, construct, Outcome.ok.injEq] at hs
      subst hs
      have new : InTree (ops ++ [Op.component context none]) s.comps.length s.comps.length := by
        unfold InTree
        rw [ht, List.getElem?_append_right (by omega)]
        simp [hn]
      have newonly : ∀ r, InTree (ops ++ [Op.component context none]) r s.comps.length → r = s.comps.length :=
        fun r hr => hr.unique new
      refine ⟨by rw [hf]; exact h.flows, by rw [hc]; simp [h.len], ?_, ?_, ?_⟩
      · intro c hcm
        have := h.fl c hcm
        simp; omega
      · intro c hlt
        simp only [List.length_append, List.length_singleton] at hlt
        rcases Nat.lt_or_ge c s.comps.length with hl | hg
        · obtain ⟨r, x, ctx, k, h1, h2, h3, h4, h5, h6⟩ := h.top c hl
          refine ⟨r, x, ctx, k, old _ _ h1, old _ _ h2, ?_, ?_, ?_, h6⟩
          · rw [hc]; exact getElem?_of_prefix (List.prefix_append _ _) h3
          · exact getElem?_of_prefix (List.prefix_append _ _) h4
          · exact getElem?_of_prefix (List.prefix_append _ _) h5
        · have e : c = s.comps.length := by omega
          subst e
          refine ⟨s.comps.length, (none, s.counters.length), context, ⟨context, none⟩, new, new, ?_, ?_, ?_, rfl⟩
          · rw [hc, List.getElem?_append_right (by rw [h.len])]; simp [h.len]
          · simp
          · simp
      · intro c d r r' x y h1 h2 h3 h4
        have key : ∀ c r x, InTree (ops ++ [Op.component context none]) r c →
            (s.comps ++ [((none : Option Nat), s.counters.length)])[c]? = some x →
            (c < s.comps.length ∧ InTree ops r c ∧ s.comps[c]? = some x ∧ x.2 < s.counters.length ∧
              r < s.comps.length) ∨ (r = s.comps.length ∧ x.2 = s.counters.length) := by
          intro c r x hi hx
          rcases Nat.lt_or_ge c s.comps.length with hl | hg
          · left
            have hi' := inv r c hl hi
            rw [List.getElem?_append_left hl] at hx
            obtain ⟨r0, x0, ctx, k, q1, q2, q3, q4, q5, q6⟩ := h.top c hl
            have e : r0 = r := q1.unique hi'
            rw [hx] at q4
            cases q4
            subst e
            have := q2.lt
            rw [← h.len] at this
            exact ⟨hl, hi', hx, (List.getElem?_eq_some_iff.mp q5).1, this⟩
          · right
            have hlt := (List.getElem?_eq_some_iff.mp hx).1
            simp only [List.length_append, List.length_singleton] at hlt
            have e : c = s.comps.length := by omega
            subst e
            refine ⟨newonly r hi, ?_⟩
            simp at hx
            rw [← hx]
        rcases key c r x h1 h3 with ⟨a1, a2, a3, a4, a5⟩ | ⟨a1, a2⟩ <;>
          rcases key d r' y h2 h4 with ⟨b1, b2, b3, b4, b5⟩ | ⟨b1, b2⟩
        · exact h.same c d r r' x y a2 b2 a3 b3
        · constructor <;> intro e <;> omega
        · constructor <;> intro e <;> omega
        · constructor <;> intro e <;> omega
    | some p =>
      simp only [step, construct] at hs
      cases hp : s.comps[p]? with
      | none => rw [hp] at hs; cases hs
      | some pk =>
        rw [hp] at hs
        simp only [Outcome.ok.injEq] at hs
        subst hs
        have hpl := (List.getElem?_eq_some_iff.mp hp).1
        obtain ⟨rp, xp, ctxp, kp, p1, p2, p3, p4, p5, p6⟩ := h.top p hpl
        rw [hp] at p4
        cases p4
        have new : InTree (ops ++ [Op.component context (some p)]) rp s.comps.length := by
          unfold InTree
          rw [ht, List.getElem?_append_right (by omega)]
          unfold InTree at p1
          simp [hn, p1]
        have key : ∀ c r x, InTree (ops ++ [Op.component context (some p)]) r c →
            (s.comps ++ [(some p, pk.2)])[c]? = some x →
            ∃ c' x', InTree ops r c' ∧ s.comps[c']? = some x' ∧ x'.2 = x.2 := by
          intro c r x hi hx
          rcases Nat.lt_or_ge c s.comps.length with hl | hg
          · rw [List.getElem?_append_left hl] at hx
            exact ⟨c, x, inv r c hl hi, hx, rfl⟩
          · have hlt := (List.getElem?_eq_some_iff.mp hx).1
            simp only [List.length_append, List.length_singleton] at hlt
            have e : c = s.comps.length := by omega
            subst e
            simp at hx
            have : r = rp := hi.unique new
            subst this
            exact ⟨p, pk, p1, hp, by rw [← hx]⟩
        refine ⟨by rw [hf]; exact h.flows, by rw [hc]; simp [h.len], ?_, ?_, ?_⟩
        · intro c hcm
          have := h.fl c hcm
          simp; omega
        · intro c hlt
          simp only [List.length_append, List.length_singleton] at hlt
          rcases Nat.lt_or_ge c s.comps.length with hl | hg
          · obtain ⟨r, x, ctx, k, h1, h2, h3, h4, h5, h6⟩ := h.top c hl
            refine ⟨r, x, ctx, k, old _ _ h1, old _ _ h2, ?_, ?_, h5, h6⟩
            · rw [hc]; exact getElem?_of_prefix (List.prefix_append _ _) h3
            · exact getElem?_of_prefix (List.prefix_append _ _) h4
          · have e : c = s.comps.length := by omega
            subst e
            refine ⟨rp, (some p, pk.2), ctxp, kp, new, old _ _ p2, ?_, ?_, p5, p6⟩
            · rw [hc]; exact getElem?_of_prefix (List.prefix_append _ _) p3
            · simp
        · intro c d r r' x y h1 h2 h3 h4
          obtain ⟨c', x', a1, a2, a3⟩ := key c r x h1 h3
          obtain ⟨d', y', b1, b2, b3⟩ := key d r' y h2 h4
          rw [← a3, ← b3]
          exact h.same c' d' r r' x' y' a1 b1 a2 b2
  | flow c accepted =>
    simp only [step, createFlow] at hs
    cases hp : s.comps[c]? with
    | none => rw [hp] at hs; cases hs
    | some pk =>
      rw [hp] at hs
      cases accepted with
      | true =>
        simp only [if_true, Outcome.ok.injEq] at hs
        subst hs
        apply inv_modify h (by rfl) Counter.reset (fun _ => rfl)
        · rw [flowsOf_append, h.flows]; rfl
        · intro c' hc'
          rw [List.mem_append, List.mem_singleton] at hc'
          rcases hc' with hc' | rfl
          · exact h.fl c' hc'
          · exact (List.getElem?_eq_some_iff.mp hp).1
      | false =>
        simp only [Bool.false_eq_true, if_false, Outcome.ok.injEq] at hs
        subst hs
        have := inv_modify h (o := .flow c false) (by rfl) id (fun _ => rfl) 0 s.flows
          (by rw [flowsOf_append, h.flows]; simp [flowsOf]) h.fl
        rw [modify_id] at this
        exact this
  | process f called fails =>
    have hfl : s.flows = flowsOf (ops ++ [Op.process f called fails]) := by
      rw [flowsOf_append, h.flows]; simp [flowsOf]
    simp only [step, process] at hs
    cases hf : s.flows[f]? with
    | none => rw [hf] at hs; cases hs
    | some c =>
      rw [hf] at hs
      dsimp only at hs
      cases hp : s.comps[c]? with
      | none => rw [hp] at hs; cases hs
      | some pk =>
        rw [hp] at hs
        cases fails with
        | true =>
          simp only [if_true, Outcome.map, Outcome.ok.injEq] at hs
          subst hs
          have := inv_modify h (o := .process f called true) (by rfl) id (fun _ => rfl) 0 s.flows hfl h.fl
          rw [modify_id] at this
          exact this
        | false =>
          simp only [Bool.false_eq_true, if_false, Outcome.map, Outcome.ok.injEq] at hs
          subst hs
          exact inv_modify h (by rfl) Counter.advance (fun _ => rfl) _ s.flows hfl h.fl

theorem inv_init : Inv init [] :=
  ⟨rfl, rfl, (by intro c h; cases h), (by intro c h; simp [init] at h), by
    intro c d r r' x y h; unfold InTree at h; simp [created, tops] at h⟩

theorem inv_run {ops : List Op} {s : State} (h : run init ops = .ok s) : Inv s ops := by
  induction ops using List.reverseRecOn generalizing s with
  | nil => cases h; exact inv_init
  | append_singleton a o ih =>
    obtain ⟨s', h1, h2⟩ := run_snoc h
    exact inv_step (ih h1) h2

/-- What a call does to the number of blocks of one tree. -/
def effect (all : List Op) (r : Nat) (b : Option Nat) (o : Op) : Option Nat :=
  if starts all r o then some 0 else if completes all r o then b.map fun n => (n + 1) % 2 ^ 64 else b

/-- The counter of a tree. -/
theorem counter_run {ops : List Op} {s : State} (post : List Op) (h : run init ops = .ok s) :
    ∀ c r, InTree ops r c → ∃ x k, s.comps[c]? = some x ∧ s.counters[x.2]? = some k ∧
      k.blocks = ops.foldl (effect (ops ++ post) r) none := by
  induction ops using List.reverseRecOn generalizing s post with
  | nil => intro c r hi; unfold InTree at hi; simp [created, tops] at hi
  | append_singleton a o ih =>
    obtain ⟨s', h1, h2⟩ := run_snoc h
    have I := inv_run h1
    have I' := inv_run h
    have ih := ih (o :: post) h1
    intro c r hi
    rw [List.append_assoc, List.singleton_append, List.foldl_append]
    have modify : ∀ (g : Counter → Counter) (d : Nat) (pk : Option Nat × Nat) (fl : List Nat),
        s'.comps[d]? = some pk → created [o] = [] → s = { s' with counters := s'.counters.modify pk.2 g, flows := fl } →
        ∃ x k, s.comps[c]? = some x ∧ s.counters[x.2]? = some (if InTree (a ++ o :: post) r d then g k else k) ∧
          k.blocks = a.foldl (effect (a ++ o :: post) r) none := by
      intro g d pk fl hd ho he
      have hi0 := (inTree_same ho r c).mp hi
      obtain ⟨x, k, q1, q2, q3⟩ := ih c r hi0
      refine ⟨x, k, by rw [he]; exact q1, ?_, q3⟩
      have hdl := (List.getElem?_eq_some_iff.mp hd).1
      obtain ⟨rd, xd, ctxd, kd, d1, d2, d3, d4, d5, d6⟩ := I.top d hdl
      rw [hd] at d4
      cases d4
      have hs := I.same c d r rd x pk hi0 d1 q1 hd
      have hd' : InTree (a ++ o :: post) r d ↔ r = rd :=
        ⟨fun hh => hh.unique (inTree_mono _ d1), fun e => e ▸ inTree_mono _ d1⟩
      rw [he]
      simp only [List.getElem?_modify, q2, Option.map_eq_map, Option.map_some]
      by_cases e : r = rd
      · rw [if_pos (hs.mpr e).symm, if_pos (hd'.mpr e)]
      · rw [if_neg (fun e' => e (hs.mp e'.symm)), if_neg (fun e' => e (hd'.mp e'))]
    cases o with
    | component context parent =>
      have he : ([Op.component context parent].foldl (effect (a ++ Op.component context parent :: post) r)
          (a.foldl (effect (a ++ Op.component context parent :: post) r) none)) =
          a.foldl (effect (a ++ Op.component context parent :: post) r) none := rfl
      rw [he]
      rcases Nat.lt_or_ge c s'.comps.length with hl | hg
      · have hi0 : InTree a r c := by
          obtain ⟨r0, x0, ctx, k, q1, _⟩ := I.top c hl
          exact (hi.unique (inTree_mono _ q1)) ▸ q1
        obtain ⟨x, k, q1, q2, q3⟩ := ih c r hi0
        refine ⟨x, k, ?_, ?_, q3⟩
        all_goals
          simp only [step, construct] at h2
          cases parent with
          | none =>
            simp only [Outcome.ok.injEq] at h2
            subst h2
            exact getElem?_of_prefix (List.prefix_append _ _) (by assumption)
          | some p =>
            dsimp only at h2
            cases hp : s'.comps[p]? with
            | none => rw [hp] at h2; cases h2
            | some pk =>
              rw [hp] at h2
              simp only [Outcome.ok.injEq] at h2
              subst h2
              first
                | exact q2
                | exact getElem?_of_prefix (List.prefix_append _ _) q1
      · have hlt := hi.lt
        rw [created_append] at hlt
        have : (created [Op.component context parent]).length = 1 := rfl
        rw [List.length_append, this, ← I.len] at hlt
        have e : c = s'.comps.length := by omega
        subst e
        simp only [step, construct] at h2
        cases parent with
        | none =>
          simp only [Outcome.ok.injEq] at h2
          subst h2
          refine ⟨(none, s'.counters.length), ⟨context, none⟩, by simp, by simp, ?_⟩
          -- no call refers to a component which does not exist yet
          have hr : r = s'.comps.length := by
            refine hi.unique ?_
            unfold InTree
            rw [created_append]
            show (tops (created a ++ [(context, none)]))[_]? = _
            rw [tops_snoc, List.getElem?_append_right (by rw [tops_length, I.len]), tops_length, I.len]
            simp
          symm
          have none_before : ∀ (u : List Op), (∃ t, run init u = .ok t ∧ t.comps.length ≤ s'.comps.length) → u <+: a →
              u.foldl (effect (a ++ Op.component context none :: post) r) none = none := by
            intro u
            induction u using List.reverseRecOn with
            | nil => intro _ _; rfl
            | append_singleton u o ihu =>
              rintro ⟨t, ht, hlen⟩ hpre
              obtain ⟨t', t1, t2⟩ := run_snoc ht
              have It := inv_run t1
              have hle : t'.comps.length ≤ t.comps.length := by
                rw [It.len, (inv_run ht).len, created_append]; simp
              rw [List.foldl_append, ihu ⟨t', t1, by omega⟩ ((List.prefix_append _ _).trans hpre)]
              have hall : u <+: a ++ Op.component context none :: post :=
                ((List.prefix_append _ _).trans hpre).trans (List.prefix_append _ _)
              have notr : ∀ d, d < t'.comps.length → ¬ InTree (a ++ Op.component context none :: post) r d := by
                intro d hd hh
                obtain ⟨rd, xd, ctxd, kd, d1, d2, _⟩ := It.top d hd
                obtain ⟨w, hw⟩ := hall
                rw [← hw] at hh
                have e := hh.unique (inTree_mono _ d1)
                have := d2.lt
                rw [← It.len] at this
                omega
              show effect _ r none o = none
              unfold effect
              cases o with
              | component ctx p => rfl
              | flow d acc =>
                cases acc with
                | false => rfl
                | true =>
                  have hd : d < t'.comps.length := by
                    simp only [step, createFlow] at t2
                    cases hp : t'.comps[d]? with
                    | none => rw [hp] at t2; cases t2
                    | some pk => exact (List.getElem?_eq_some_iff.mp hp).1
                  have : starts (a ++ Op.component context none :: post) r (.flow d true) = false := by
                    simp only [starts, decide_eq_false_iff_not]; exact notr d hd
                  rw [this]; rfl
              | process f called fails => simp [starts]
          exact none_before a ⟨s', h1, Nat.le_refl _⟩ (List.prefix_refl _)
        | some p =>
          dsimp only at h2
          cases hp : s'.comps[p]? with
          | none => rw [hp] at h2; cases h2
          | some pk =>
            rw [hp] at h2
            simp only [Outcome.ok.injEq] at h2
            subst h2
            have hpl := (List.getElem?_eq_some_iff.mp hp).1
            obtain ⟨rp, xp, ctxp, kp, p1, _⟩ := I.top p hpl
            have hr : r = rp := by
              refine hi.unique ?_
              unfold InTree
              rw [created_append]
              show (tops (created a ++ [(context, some p)]))[_]? = _
              unfold InTree at p1
              rw [tops_snoc, List.getElem?_append_right (by rw [tops_length, I.len]), tops_length, I.len]
              simp [p1]
            subst hr
            obtain ⟨x, k, q1, q2, q3⟩ := ih p r p1
            rw [hp] at q1
            cases q1
            exact ⟨(some p, pk.2), k, by simp, q2, q3⟩
    | flow d accepted =>
      simp only [step, createFlow] at h2
      cases hp : s'.comps[d]? with
      | none => rw [hp] at h2; cases h2
      | some pk =>
        rw [hp] at h2
        cases accepted with
        | false =>
          simp only [Bool.false_eq_true, if_false, Outcome.ok.injEq] at h2
          subst h2
          obtain ⟨x, k, q1, q2, q3⟩ := ih c r ((inTree_same rfl r c).mp hi)
          exact ⟨x, k, q1, q2, by rw [q3]; rfl⟩
        | true =>
          simp only [if_true, Outcome.ok.injEq] at h2
          obtain ⟨x, k, q1, q2, q3⟩ := modify Counter.reset d pk _ hp rfl h2.symm
          refine ⟨x, _, q1, q2, ?_⟩
          rw [List.foldl_cons, List.foldl_nil]
          rw [← q3]
          unfold effect
          by_cases e : InTree (a ++ Op.flow d true :: post) r d
          · simp [e, starts, Counter.reset]
          · simp [e, starts, completes]
    | process f called fails =>
      have hfl : (flowsOf (a ++ Op.process f called fails :: post)) = s'.flows ++ flowsOf post := by
        rw [flowsOf_append, I.flows]; rfl
      simp only [step, process] at h2
      cases hf : s'.flows[f]? with
      | none => rw [hf] at h2; cases h2
      | some d =>
        rw [hf] at h2
        dsimp only at h2
        have hfd : (flowsOf (a ++ Op.process f called fails :: post))[f]? = some d := by
          rw [hfl]; exact getElem?_of_prefix (List.prefix_append _ _) hf
        cases hp : s'.comps[d]? with
        | none => rw [hp] at h2; cases h2
        | some pk =>
          rw [hp] at h2
          cases fails with
          | true =>
            simp only [if_true, Outcome.map, Outcome.ok.injEq] at h2
            subst h2
            obtain ⟨x, k, q1, q2, q3⟩ := ih c r ((inTree_same rfl r c).mp hi)
            exact ⟨x, k, q1, q2, by rw [q3]; rfl⟩
          | false =>
            simp only [Bool.false_eq_true, if_false, Outcome.map, Outcome.ok.injEq] at h2
            obtain ⟨x, k, q1, q2, q3⟩ := modify Counter.advance d pk s'.flows hp rfl h2.symm
            refine ⟨x, _, q1, q2, ?_⟩
            rw [List.foldl_cons, List.foldl_nil]
            rw [← q3]
            unfold effect
            by_cases e : InTree (a ++ Op.process f called false :: post) r d
            · simp [e, starts, completes, hfd, Counter.advance]
            · simp [e, starts, completes, hfd]

/-- The number of blocks since the start. -/
theorem foldl_count (all : List Op) (r : Nat) (post : List Op) (hpost : ∀ o ∈ post, starts all r o = false) (n : Nat) :
    post.foldl (effect all r) (some (n % 2 ^ 64)) = some ((n + post.countP (completes all r)) % 2 ^ 64) := by
  induction post generalizing n with
  | nil => rfl
  | cons o os ih =>
    rw [List.foldl_cons, List.countP_cons]
    have h0 := hpost o (by simp)
    have ih := ih (fun o' h' => hpost o' (by simp [h']))
    unfold effect at *
    rw [h0]
    by_cases hc : completes all r o = true
    · simp only [Bool.false_eq_true, if_false, hc, if_true, Option.map_some]
      have : (n % 2 ^ 64 + 1) % 2 ^ 64 = (n + 1) % 2 ^ 64 := by omega
      rw [this, ih]
      congr 2
      omega
    · simp only [Bool.false_eq_true, if_false, hc]
      rw [ih]
      rfl

theorem foldl_none (all : List Op) (r : Nat) (ops : List Op) (h : ∀ o ∈ ops, starts all r o = false) :
    ops.foldl (effect all r) none = none := by
  induction ops with
  | nil => rfl
  | cons o os ih =>
    rw [List.foldl_cons]
    have : effect all r none o = none := by
      unfold effect
      rw [h o (by simp)]
      simp
    rw [this]
    exact ih (fun o' h' => h o' (by simp [h']))

end Visr.Clock
