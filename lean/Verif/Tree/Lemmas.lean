import Verif.Tree.Model
import Mathlib.Tactic.Common
import Mathlib.Tactic.SplitIfs
import Mathlib.Data.List.Nodup
import Mathlib.Data.List.Pairwise

/-! # Invariant of the component tree -/

namespace Visr.Tree
open Visr

/-- What holds in every reachable state. -/
structure Inv (s : State) : Prop where
  bound : ∀ c k, s.comps c = some k → c < s.next
  pbound : ∀ x q, s.ports x = some q → x < s.next
  cbound : ∀ x q c, s.ports x = some q → q.comp = some c → c < s.next
  par : ∀ c k p, s.comps c = some k → k.parent = some p →
    p < c ∧ ∃ q, s.comps p = some q ∧ q.composite = true ∧ c ∈ q.children
  child : ∀ p q c, s.comps p = some q → c ∈ q.children → ∃ k, s.comps c = some k ∧ k.parent = some p
  names : ∀ p q, s.comps p = some q → q.children.Pairwise fun a b => s.compName a ≠ s.compName b
  atomic : ∀ p q, s.comps p = some q → q.composite = false → q.children = []
  port : ∀ c k kind x, s.comps c = some k → x ∈ k.ports kind → ∃ q, s.ports x = some q ∧ q.comp = some c ∧ q.kind = kind
  reg : ∀ x q c k, s.ports x = some q → q.comp = some c → s.comps c = some k → x ∈ k.ports q.kind
  pnames : ∀ c k kind, s.comps c = some k → (k.ports kind).Pairwise fun a b => s.portName a ≠ s.portName b

theorem Inv.empty : Inv .empty := by
  constructor <;> intros <;> simp_all [State.empty]

/-- The name of the element to be removed occurs once. -/
theorem eraseP_unique {α β : Type*} [DecidableEq α] [DecidableEq β] {f : α → β} {l : List α} {c : α}
    (h : l.Pairwise fun a b => f a ≠ f b) (hc : c ∈ l) : l.eraseP (fun x => decide (f x = f c)) = l.erase c := by
  induction l with
  | nil => rfl
  | cons a l ih =>
    rw [List.pairwise_cons] at h
    by_cases hac : a = c
    · subst hac; simp
    · have hcl : c ∈ l := by
        rcases List.mem_cons.1 hc with h' | h'
        · exact absurd h'.symm hac
        · exact h'
      have : f a ≠ f c := h.1 c hcl
      rw [List.eraseP_cons_of_neg (by simpa using this), ih h.2 hcl, List.erase_cons_tail (by simpa using hac)]

theorem pairwise_ne {α β : Type*} {f : α → β} {l : List α} (h : l.Pairwise fun a b => f a ≠ f b) {a b : α} (ha : a ∈ l)
    (hb : b ∈ l) (hab : a ≠ b) : f a ≠ f b := by
  have : Std.Symm fun a b => f a ≠ f b := ⟨fun _ _ h => h.symm⟩
  exact List.Pairwise.forall h ha hb hab

theorem nodup_of_names {α β : Type*} {f : α → β} {l : List α} (h : l.Pairwise fun a b => f a ≠ f b) : l.Nodup :=
  h.imp fun hne heq => hne (by rw [heq])

theorem findComponentEntry_some {s : State} (hi : Inv s) {p : Nat} {q : Comp} (hq : s.comps p = some q) {nm : Name}
    {c : Nat} : findComponentEntry s q nm = some c ↔ ∃ k, s.comps c = some k ∧ k.parent = some p ∧ k.name = nm := by
  unfold findComponentEntry
  constructor
  · intro h
    have hm := List.mem_of_find?_eq_some h
    have hn := List.find?_some h
    obtain ⟨k, hk, hp⟩ := hi.child p q c hq hm
    refine ⟨k, hk, hp, ?_⟩
    simpa [State.compName, hk] using hn
  · rintro ⟨k, hk, hp, rfl⟩
    obtain ⟨-, q', hq', -, hm⟩ := hi.par c k p hk hp
    rw [hq] at hq'; cases hq'
    have hnames := hi.names p q hq
    cases hf : q.children.find? (fun c => decide (s.compName c = some k.name)) with
    | none =>
      have := List.find?_eq_none.1 hf c hm
      simp [State.compName, hk] at this
    | some c' =>
      have hm' := List.mem_of_find?_eq_some hf
      have hn' := List.find?_some hf
      simp only [decide_eq_true_eq] at hn'
      by_contra hne
      have hne' : c' ≠ c := fun h => hne (by rw [h])
      have : s.compName c = some k.name := by simp [State.compName, hk]
      exact (pairwise_ne hnames hm' hm hne') (by rw [hn', this])

theorem findPortEntry_some {s : State} (hi : Inv s) {c : Nat} {k : Comp} (hk : s.comps c = some k) {kind : Kind}
    {nm : Name} {x : Nat} : findPortEntry s k kind nm = some x ↔
      ∃ q, s.ports x = some q ∧ q.comp = some c ∧ q.kind = kind ∧ q.name = nm := by
  unfold findPortEntry
  constructor
  · intro h
    have hm := List.mem_of_find?_eq_some h
    have hn := List.find?_some h
    obtain ⟨q, hq, hp, hkd⟩ := hi.port c k kind x hk hm
    refine ⟨q, hq, hp, hkd, ?_⟩
    simpa [State.portName, hq] using hn
  · rintro ⟨q, hq, hp, rfl, rfl⟩
    have hm := hi.reg x q c k hq hp hk
    have hnames := hi.pnames c k q.kind hk
    cases hf : (k.ports q.kind).find? (fun y => decide (s.portName y = some q.name)) with
    | none =>
      have := List.find?_eq_none.1 hf x hm
      simp [State.portName, hq] at this
    | some y =>
      have hm' := List.mem_of_find?_eq_some hf
      have hn' := List.find?_some hf
      simp only [decide_eq_true_eq] at hn'
      by_contra hne
      have hne' : y ≠ x := fun h => hne (by rw [h])
      have : s.portName x = some q.name := by simp [State.portName, hq]
      exact (pairwise_ne hnames hm' hm hne') (by rw [hn', this])

theorem Inv.next_none {s : State} (hi : Inv s) : s.comps s.next = none := by
  cases h : s.comps s.next with
  | none => rfl
  | some k => exact absurd (hi.bound _ _ h) (Nat.lt_irrefl _)

theorem Inv.nextPort_none {s : State} (hi : Inv s) : s.ports s.next = none := by
  cases h : s.ports s.next with
  | none => rfl
  | some k => exact absurd (hi.pbound _ _ h) (Nat.lt_irrefl _)

theorem Inv.child_lt {s : State} (hi : Inv s) {p c : Nat} {q : Comp} (hq : s.comps p = some q) (hc : c ∈ q.children) :
    p < c ∧ c < s.next := by
  obtain ⟨k, hk, hp⟩ := hi.child p q c hq hc
  exact ⟨(hi.par c k p hk hp).1, hi.bound c k hk⟩

/-- A change of the connection tables. -/
theorem Inv.conns {s : State} (hi : Inv s) {p : Nat} {q : Comp} (hq : s.comps p = some q) (a : List AConn)
    (b : List (Nat × Nat)) : Inv (s.setComp p (some { q with aconns := a, pconns := b })) := by
  have hval : ∀ c k, (s.setComp p (some { q with aconns := a, pconns := b })).comps c = some k →
      ∃ k', s.comps c = some k' ∧ k.name = k'.name ∧ k.composite = k'.composite ∧ k.parent = k'.parent ∧
        k.children = k'.children ∧ k.ports = k'.ports := by
    intro c k h
    simp only [State.setComp] at h
    split_ifs at h with hc
    · subst hc; cases h; exact ⟨q, hq, rfl, rfl, rfl, rfl, rfl⟩
    · exact ⟨k, h, rfl, rfl, rfl, rfl, rfl⟩
  have hback : ∀ c k', s.comps c = some k' →
      ∃ k, (s.setComp p (some { q with aconns := a, pconns := b })).comps c = some k ∧ k.name = k'.name ∧
        k.composite = k'.composite ∧ k.parent = k'.parent ∧ k.children = k'.children ∧ k.ports = k'.ports := by
    intro c k' h
    simp only [State.setComp]
    by_cases hc : c = p
    · subst hc
      rw [hq] at h; cases h
      exact ⟨_, if_pos rfl, rfl, rfl, rfl, rfl, rfl⟩
    · exact ⟨k', by rw [if_neg hc, h], rfl, rfl, rfl, rfl, rfl⟩
  have hname : ∀ c, (s.setComp p (some { q with aconns := a, pconns := b })).compName c = s.compName c := by
    intro c
    simp only [State.compName, State.setComp]
    split_ifs with hc
    · subst hc; simp [hq]
    · rfl
  constructor
  · intro c k h
    obtain ⟨k', hk', -⟩ := hval c k h
    exact hi.bound c k' hk'
  · exact hi.pbound
  · exact hi.cbound
  · intro c k p' h hp
    obtain ⟨k', hk', -, -, hpar, -⟩ := hval c k h
    obtain ⟨hlt, q', hq', hcomp, hmem⟩ := hi.par c k' p' hk' (by rw [← hpar, hp])
    obtain ⟨q'', hq'', -, hc'', -, hch'', -⟩ := hback p' q' hq'
    exact ⟨hlt, q'', hq'', by rw [hc'', hcomp], by rw [hch'']; exact hmem⟩
  · intro p' q' c h hm
    obtain ⟨q'', hq'', -, -, -, hch, -⟩ := hval p' q' h
    obtain ⟨k, hk, hp⟩ := hi.child p' q'' c hq'' (by rw [← hch]; exact hm)
    obtain ⟨k', hk', -, -, hpar, -⟩ := hback c k hk
    exact ⟨k', hk', by rw [hpar, hp]⟩
  · intro p' q' h
    obtain ⟨q'', hq'', -, -, -, hch, -⟩ := hval p' q' h
    rw [hch]
    simp only [hname]
    exact hi.names p' q'' hq''
  · intro p' q' h hc
    obtain ⟨q'', hq'', -, hcomp, -, hch, -⟩ := hval p' q' h
    rw [hch]
    exact hi.atomic p' q'' hq'' (by rw [← hcomp, hc])
  · intro c k kind x h hm
    obtain ⟨k', hk', -, -, -, -, hpo⟩ := hval c k h
    exact hi.port c k' kind x hk' (by rw [← hpo]; exact hm)
  · intro x r c k hr hrc h
    obtain ⟨k', hk', -, -, -, -, hpo⟩ := hval c k h
    rw [hpo]
    exact hi.reg x r c k' hr hrc hk'
  · intro c k kind h
    obtain ⟨k', hk', -, -, -, -, hpo⟩ := hval c k h
    rw [hpo]
    exact hi.pnames c k' kind hk'

theorem create_inv {s s' : State} {r : Res} (hi : Inv s) {nm : Name} {b : Bool} {parent : Option Nat}
    (h : create s nm b parent = .ok (s', r)) : Inv s' := by
  have hn := hi.next_none
  have hnp := hi.nextPort_none
  cases parent with
  | none =>
    simp only [create, Outcome.ok.injEq, Prod.mk.injEq] at h
    obtain ⟨rfl, rfl⟩ := h
    have hold : ∀ c k, c ≠ s.next → ((s.setComp s.next (some (.fresh nm b none))).comps c = some k ↔ s.comps c = some k) := by
      intro c k hc
      simp [State.setComp, hc]
    have hcases : ∀ c k, (s.setComp s.next (some (.fresh nm b none))).comps c = some k →
        (c = s.next ∧ k = .fresh nm b none) ∨ (c ≠ s.next ∧ s.comps c = some k) := by
      intro c k h
      simp only [State.setComp] at h
      split_ifs at h with hc
      · exact Or.inl ⟨hc, by simpa using h.symm⟩
      · exact Or.inr ⟨hc, h⟩
    constructor
    · intro c k h
      rcases hcases c k h with ⟨rfl, -⟩ | ⟨-, h⟩
      · exact Nat.lt_succ_self _
      · exact Nat.lt_succ_of_lt (hi.bound c k h)
    · intro x q h; exact Nat.lt_succ_of_lt (hi.pbound x q h)
    · intro x q c h hc; exact Nat.lt_succ_of_lt (hi.cbound x q c h hc)
    · intro c k p h hp
      rcases hcases c k h with ⟨rfl, rfl⟩ | ⟨-, h⟩
      · simp [Comp.fresh] at hp
      · obtain ⟨hlt, q, hq, hqc, hm⟩ := hi.par c k p h hp
        exact ⟨hlt, q, (hold p q (by have := hi.bound p q hq; omega)).2 hq, hqc, hm⟩
    · intro p q c h hm
      rcases hcases p q h with ⟨rfl, rfl⟩ | ⟨-, h⟩
      · simp [Comp.fresh] at hm
      · obtain ⟨k, hk, hp⟩ := hi.child p q c h hm
        exact ⟨k, (hold c k (by have := hi.bound c k hk; omega)).2 hk, hp⟩
    · intro p q h
      rcases hcases p q h with ⟨rfl, rfl⟩ | ⟨-, h⟩
      · simp [Comp.fresh]
      · refine (hi.names p q h).imp_of_mem ?_
        intro a c ha hc hne
        have h1 := (hi.child_lt h ha).2
        have h2 := (hi.child_lt h hc).2
        simpa [State.compName, State.setComp, Nat.ne_of_lt h1, Nat.ne_of_lt h2] using hne
    · intro p q h hc
      rcases hcases p q h with ⟨rfl, rfl⟩ | ⟨-, h⟩
      · rfl
      · exact hi.atomic p q h hc
    · intro c k kind x h hm
      rcases hcases c k h with ⟨rfl, rfl⟩ | ⟨-, h⟩
      · simp [Comp.fresh] at hm
      · exact hi.port c k kind x h hm
    · intro x q c k hq hc h
      rcases hcases c k h with ⟨rfl, rfl⟩ | ⟨-, h⟩
      · exact absurd (hi.cbound x q _ hq hc) (Nat.lt_irrefl _)
      · exact hi.reg x q c k hq hc h
    · intro c k kind h
      rcases hcases c k h with ⟨rfl, rfl⟩ | ⟨-, h⟩
      · simp [Comp.fresh]
      · exact hi.pnames c k kind h
  | some p0 =>
    simp only [create] at h
    cases hq0 : s.comps p0 with
    | none => rw [hq0] at h; cases h
    | some q0 =>
      rw [hq0] at h
      simp only at h
      split_ifs at h with hcomp hfind
      · cases h; exact hi
      simp only [Outcome.ok.injEq, Prod.mk.injEq] at h
      obtain ⟨rfl, rfl⟩ := h
      have hp0 : p0 < s.next := hi.bound _ _ hq0
      have hcases : ∀ c k, ((s.setComp p0 (some { q0 with children := q0.children ++ [s.next] })).setComp s.next
          (some (.fresh nm b (some p0)))).comps c = some k →
          (c = s.next ∧ k = .fresh nm b (some p0)) ∨ (c = p0 ∧ k = { q0 with children := q0.children ++ [s.next] }) ∨
          (c ≠ s.next ∧ c ≠ p0 ∧ s.comps c = some k) := by
        intro c k h
        simp only [State.setComp] at h
        split_ifs at h with hc hc'
        · exact Or.inl ⟨hc, by simpa using h.symm⟩
        · exact Or.inr (Or.inl ⟨hc', by simpa using h.symm⟩)
        · exact Or.inr (Or.inr ⟨hc, hc', h⟩)
      have hback : ∀ c k, s.comps c = some k → ∃ k', ((s.setComp p0 (some { q0 with children := q0.children ++ [s.next] })).setComp
          s.next (some (.fresh nm b (some p0)))).comps c = some k' ∧ k'.parent = k.parent ∧ k'.composite = k.composite ∧
          k'.name = k.name ∧ k'.ports = k.ports ∧ ∀ x ∈ k.children, x ∈ k'.children := by
        intro c k h
        have hc : c ≠ s.next := by have := hi.bound c k h; omega
        simp only [State.setComp, if_neg hc]
        by_cases hcp : c = p0
        · subst hcp
          rw [hq0] at h; cases h
          refine ⟨_, if_pos rfl, rfl, rfl, rfl, rfl, ?_⟩
          intro x hx; simp [hx]
        · exact ⟨k, by rw [if_neg hcp, h], rfl, rfl, rfl, rfl, fun x hx => hx⟩
      have hname : ∀ c, c ≠ s.next → ((s.setComp p0 (some { q0 with children := q0.children ++ [s.next] })).setComp
          s.next (some (.fresh nm b (some p0)))).compName c = s.compName c := by
        intro c hc
        simp only [State.compName, State.setComp, if_neg hc]
        split_ifs with hcp
        · subst hcp; simp [hq0]
        · rfl
      have hnew : ((s.setComp p0 (some { q0 with children := q0.children ++ [s.next] })).setComp
          s.next (some (.fresh nm b (some p0)))).comps s.next = some (.fresh nm b (some p0)) := by
        simp [State.setComp]
      constructor
      · intro c k h
        rcases hcases c k h with ⟨rfl, -⟩ | ⟨rfl, -⟩ | ⟨-, -, h⟩
        · exact Nat.lt_succ_self _
        · exact Nat.lt_succ_of_lt hp0
        · exact Nat.lt_succ_of_lt (hi.bound c k h)
      · intro x q h; exact Nat.lt_succ_of_lt (hi.pbound x q h)
      · intro x q c h hc; exact Nat.lt_succ_of_lt (hi.cbound x q c h hc)
      · intro c k p h hp
        rcases hcases c k h with ⟨rfl, rfl⟩ | ⟨rfl, rfl⟩ | ⟨-, -, h⟩
        · simp only [Comp.fresh, Option.some.injEq] at hp
          subst hp
          refine ⟨hp0, { q0 with children := q0.children ++ [s.next] }, ?_, by simpa using hcomp, by simp⟩
          simp [State.setComp, Nat.ne_of_lt hp0]
        · obtain ⟨hlt, q, hq, hqc, hm⟩ := hi.par c q0 p hq0 hp
          obtain ⟨q', hq', -, hc', -, -, hsub⟩ := hback p q hq
          exact ⟨hlt, q', hq', by rw [hc', hqc], hsub c hm⟩
        · obtain ⟨hlt, q, hq, hqc, hm⟩ := hi.par c k p h hp
          obtain ⟨q', hq', -, hc', -, -, hsub⟩ := hback p q hq
          exact ⟨hlt, q', hq', by rw [hc', hqc], hsub c hm⟩
      · intro p q c h hm
        have hchild : ∀ q1, s.comps p = some q1 → c ∈ q1.children → _ := fun q1 h1 h2 => hi.child p q1 c h1 h2
        rcases hcases p q h with ⟨rfl, rfl⟩ | ⟨rfl, rfl⟩ | ⟨-, -, h⟩
        · simp [Comp.fresh] at hm
        · simp only [List.mem_append, List.mem_singleton] at hm
          rcases hm with hm | rfl
          · obtain ⟨k, hk, hp⟩ := hchild q0 hq0 hm
            obtain ⟨k', hk', hp', -⟩ := hback c k hk
            exact ⟨k', hk', by rw [hp', hp]⟩
          · exact ⟨_, hnew, rfl⟩
        · obtain ⟨k, hk, hp⟩ := hchild q h hm
          obtain ⟨k', hk', hp', -⟩ := hback c k hk
          exact ⟨k', hk', by rw [hp', hp]⟩
      · intro p q h
        have hold : ∀ q1, s.comps p = some q1 → q1.children.Pairwise fun a c =>
            ((s.setComp p0 (some { q0 with children := q0.children ++ [s.next] })).setComp
          s.next (some (.fresh nm b (some p0)))).compName a ≠ ((s.setComp p0 (some { q0 with children := q0.children ++ [s.next] })).setComp
          s.next (some (.fresh nm b (some p0)))).compName c := by
          intro q1 h1
          refine (hi.names p q1 h1).imp_of_mem ?_
          intro a c ha hc hne
          rw [hname a (Nat.ne_of_lt (hi.child_lt h1 ha).2), hname c (Nat.ne_of_lt (hi.child_lt h1 hc).2)]
          exact hne
        rcases hcases p q h with ⟨rfl, rfl⟩ | ⟨rfl, rfl⟩ | ⟨-, -, h⟩
        · simp [Comp.fresh]
        · simp only [List.pairwise_append]
          refine ⟨hold q0 hq0, by simp, ?_⟩
          intro a ha c hc
          simp only [List.mem_singleton] at hc
          subst hc
          have han := (hi.child_lt hq0 ha).2
          have h1 := hname a (Nat.ne_of_lt han)
          show State.compName _ a ≠ State.compName _ s.next
          have h2 : ((s.setComp p (some { q0 with children := q0.children ++ [s.next] })).setComp
            s.next (some (.fresh nm b (some p)))).compName s.next = some nm := by
            unfold State.compName; rw [hnew]; rfl
          intro heq
          have : s.compName a = some nm := by rw [← h1]; exact heq.trans h2
          apply hfind
          unfold findComponentEntry
          rw [List.find?_isSome]
          exact ⟨a, ha, by simpa using this⟩
        · exact hold q h
      · intro p q h hc
        rcases hcases p q h with ⟨rfl, rfl⟩ | ⟨rfl, rfl⟩ | ⟨-, -, h⟩
        · rfl
        · simp only at hc
          exact absurd hc (by simpa using hcomp)
        · exact hi.atomic p q h hc
      · intro c k kind x h hm
        rcases hcases c k h with ⟨rfl, rfl⟩ | ⟨rfl, rfl⟩ | ⟨-, -, h⟩
        · simp [Comp.fresh] at hm
        · exact hi.port c q0 kind x hq0 hm
        · exact hi.port c k kind x h hm
      · intro x q c k hq hc h
        rcases hcases c k h with ⟨rfl, rfl⟩ | ⟨rfl, rfl⟩ | ⟨-, -, h⟩
        · exact absurd (hi.cbound x q _ hq hc) (Nat.lt_irrefl _)
        · exact hi.reg x q c q0 hq hc hq0
        · exact hi.reg x q c k hq hc h
      · intro c k kind h
        rcases hcases c k h with ⟨rfl, rfl⟩ | ⟨rfl, rfl⟩ | ⟨-, -, h⟩
        · simp [Comp.fresh]
        · exact hi.pnames c q0 kind hq0
        · exact hi.pnames c k kind h

theorem orphan_comps {s : State} (hi : Inv s) {c : Nat} {k : Comp} (hk : s.comps c = some k) (x : Nat) :
    (orphan s k).comps x = if x ∈ k.children then (s.comps x).map fun r => { r with parent := none } else s.comps x := by
  unfold orphan
  split_ifs with h1 h2 h2
  · simp [h2]
  · simp [h2]
  · rw [hi.atomic c k hk (by simpa using h1)] at h2
    simp at h2
  · rfl

theorem orphan_compName {s : State} (hi : Inv s) {c : Nat} {k : Comp} (hk : s.comps c = some k) (x : Nat) :
    (orphan s k).compName x = s.compName x := by
  unfold State.compName
  rw [orphan_comps hi hk]
  split_ifs
  · cases s.comps x <;> rfl
  · rfl

theorem orphan_ports {s : State} {k : Comp} : (orphan s k).ports = s.ports := by
  unfold orphan; split_ifs <;> rfl

theorem orphan_next {s : State} {k : Comp} : (orphan s k).next = s.next := by
  unfold orphan; split_ifs <;> rfl

/-- The components after the destruction of a component `c`: the others remain, with `c` removed from the children of its
parent and its own children without parent. -/
theorem destroy_comps {s : State} (hi : Inv s) {c : Nat} {k : Comp} (hk : s.comps c = some k) :
    ∃ s', destroy s c = .ok (s', .done) ∧ s'.ports = s.ports ∧ s'.next = s.next ∧
      ∀ x, s'.comps x = if x = c then none else (s.comps x).map fun r =>
        { r with parent := if r.parent = some c then none else r.parent, children := r.children.filter fun y => y ≠ c } := by
  unfold destroy
  rw [hk]
  simp only
  have hfilt : ∀ x r, s.comps x = some r → k.parent ≠ some x → r.children.filter (fun y => decide (y ≠ c)) = r.children := by
    intro x r hr hne
    apply List.filter_eq_self.2
    intro y hy
    simp only [decide_eq_true_eq]
    rintro rfl
    obtain ⟨k', hk', hp'⟩ := hi.child x r y hr hy
    rw [hk] at hk'; cases hk'
    exact hne hp'
  have hpar : ∀ x r, s.comps x = some r → (x ∈ k.children ↔ r.parent = some c) := by
    intro x r hr
    constructor
    · intro hx
      obtain ⟨r', hr', hp⟩ := hi.child c k x hk hx
      rw [hr] at hr'; cases hr'; exact hp
    · intro hp
      obtain ⟨-, q, hq, -, hm⟩ := hi.par x r c hr hp
      rw [hk] at hq; cases hq; exact hm
  cases hp : k.parent with
  | none =>
    refine ⟨_, rfl, by simp [State.setComp, orphan_ports], by simp [State.setComp, orphan_next], ?_⟩
    intro x
    simp only [State.setComp, orphan_comps hi hk]
    by_cases hxc : x = c
    · simp [hxc]
    · simp only [if_neg hxc]
      cases hr : s.comps x with
      | none => simp
      | some r =>
        have hf := hfilt x r hr (by rw [hp]; simp)
        by_cases hx : x ∈ k.children
        · simp only [if_pos hx, Option.map_some, Option.some.injEq]
          rw [if_pos ((hpar x r hr).1 hx), hf]
        · simp only [if_neg hx, Option.map_some, Option.some.injEq]
          rw [if_neg (fun h => hx ((hpar x r hr).2 h)), hf]
  | some p =>
    obtain ⟨hlt, q, hq, hqc, hm⟩ := hi.par c k p hk hp
    have hpk : p ∉ k.children := by
      intro h
      have := (hi.child_lt hk h).1
      omega
    have hq1 : (orphan s k).comps p = some q := by rw [orphan_comps hi hk, if_neg hpk, hq]
    simp only [hq1]
    refine ⟨_, rfl, by simp [State.setComp, orphan_ports], by simp [State.setComp, orphan_next], ?_⟩
    intro x
    simp only [State.setComp, orphan_comps hi hk]
    by_cases hxc : x = c
    · simp [hxc]
    · simp only [if_neg hxc]
      by_cases hxp : x = p
      · subst hxp
        simp only [if_true, hq, Option.map_some, Option.some.injEq]
        rw [if_neg (fun h => hpk ((hpar x q hq).2 h))]
        have he : (fun y => decide ((orphan s k).compName y = some k.name)) = fun y => decide (s.compName y = s.compName c) := by
          funext y
          rw [orphan_compName hi hk]
          simp [State.compName, hk]
        rw [he, eraseP_unique (hi.names x q hq) hm, (nodup_of_names (hi.names x q hq)).erase_eq_filter]
        congr 1
        apply List.filter_congr
        intro y _
        simp [bne, decide_not]
        by_cases hyc : y = c <;> simp [hyc]
      · simp only [if_neg hxp]
        cases hr : s.comps x with
        | none => simp
        | some r =>
          have hf := hfilt x r hr (by rw [hp]; intro h; exact hxp (by simpa using h.symm))
          by_cases hx : x ∈ k.children
          · simp only [if_pos hx, Option.map_some, Option.some.injEq]
            rw [if_pos ((hpar x r hr).1 hx), hf]
          · simp only [if_neg hx, Option.map_some, Option.some.injEq]
            rw [if_neg (fun h => hx ((hpar x r hr).2 h)), hf]

theorem destroy_inv {s s' : State} {r : Res} (hi : Inv s) {c : Nat} (h : destroy s c = .ok (s', r)) : Inv s' := by
  cases hk : s.comps c with
  | none => simp [destroy, hk] at h
  | some k =>
    obtain ⟨s2, hs', hports, hnext, hcomps⟩ := destroy_comps hi hk
    rw [hs'] at h
    simp only [Outcome.ok.injEq, Prod.mk.injEq] at h
    obtain ⟨rfl, -⟩ := h
    have hval : ∀ x r', s2.comps x = some r' → x ≠ c ∧ ∃ r, s.comps x = some r ∧ r' =
        { r with parent := if r.parent = some c then none else r.parent, children := r.children.filter fun y => y ≠ c } := by
      intro x r' hx
      rw [hcomps] at hx
      split_ifs at hx with hxc
      cases hr : s.comps x with
      | none => rw [hr] at hx; cases hx
      | some r => rw [hr] at hx; exact ⟨hxc, r, rfl, by simpa using hx.symm⟩
    have hback : ∀ x r, s.comps x = some r → x ≠ c → s2.comps x = some
        { r with parent := if r.parent = some c then none else r.parent, children := r.children.filter fun y => y ≠ c } := by
      intro x r hr hx
      rw [hcomps, if_neg hx, hr]; rfl
    have hname : ∀ x, x ≠ c → s2.compName x = s.compName x := by
      intro x hx
      unfold State.compName
      rw [hcomps, if_neg hx]
      cases s.comps x <;> rfl
    constructor
    · intro x r' hx
      obtain ⟨-, r, hr, -⟩ := hval x r' hx
      rw [hnext]; exact hi.bound x r hr
    · rw [hports, hnext]; exact hi.pbound
    · rw [hports, hnext]; exact hi.cbound
    · intro x r' p hx hp
      obtain ⟨hxc, r, hr, rfl⟩ := hval x r' hx
      simp only at hp
      split_ifs at hp with hrc
      obtain ⟨hlt, q, hq, hqc, hm⟩ := hi.par x r p hr hp
      have hpc : p ≠ c := by rintro rfl; exact hrc hp
      refine ⟨hlt, _, hback p q hq hpc, hqc, ?_⟩
      simp [hm, hxc]
    · intro p q' x hp hm
      obtain ⟨hpc, q, hq, rfl⟩ := hval p q' hp
      simp only [List.mem_filter, decide_eq_true_eq] at hm
      obtain ⟨r, hr, hrp⟩ := hi.child p q x hq hm.1
      refine ⟨_, hback x r hr hm.2, ?_⟩
      simp [hrp, hpc]
    · intro p q' hp
      obtain ⟨hpc, q, hq, rfl⟩ := hval p q' hp
      refine ((hi.names p q hq).filter _).imp_of_mem ?_
      intro a b ha hb hne
      simp only [List.mem_filter, decide_eq_true_eq] at ha hb
      rw [hname a ha.2, hname b hb.2]
      exact hne
    · intro p q' hp hc
      obtain ⟨-, q, hq, rfl⟩ := hval p q' hp
      simp only
      rw [hi.atomic p q hq hc]
      rfl
    · intro x r' kind y hx hm
      obtain ⟨hxc, r, hr, rfl⟩ := hval x r' hx
      rw [hports]
      exact hi.port x r kind y hr hm
    · intro y q x r' hq hqx hx
      obtain ⟨hxc, r, hr, rfl⟩ := hval x r' hx
      rw [hports] at hq
      exact hi.reg y q x r hq hqx hr
    · intro x r' kind hx
      obtain ⟨hxc, r, hr, rfl⟩ := hval x r' hx
      have : s2.portName = s.portName := by funext y; simp [State.portName, hports]
      rw [this]
      exact hi.pnames x r kind hr

/-- The structure of the components does not change when only port lists change. -/
theorem createPort_inv {s s' : State} {r : Res} (hi : Inv s) {kind : Kind} {nm : Name} {w : Nat} {comp : Option Nat}
    (h : createPort s kind nm w comp = .ok (s', r)) : Inv s' := by
  have hnp := hi.nextPort_none
  cases comp with
  | none =>
    simp only [createPort] at h
    split_ifs at h with hkd
    simp only [Outcome.ok.injEq, Prod.mk.injEq] at h
    obtain ⟨rfl, rfl⟩ := h
    have hport : ∀ x q, (s.setPort s.next (some ⟨nm, none, kind, w⟩)).ports x = some q →
        (x = s.next ∧ q = ⟨nm, none, kind, w⟩) ∨ (x ≠ s.next ∧ s.ports x = some q) := by
      intro x q h
      simp only [State.setPort] at h
      split_ifs at h with hx
      · exact Or.inl ⟨hx, by simpa using h.symm⟩
      · exact Or.inr ⟨hx, h⟩
    have hold : ∀ x, x ≠ s.next → (s.setPort s.next (some ⟨nm, none, kind, w⟩)).ports x = s.ports x := by
      intro x hx; simp [State.setPort, hx]
    constructor
    · intro c k h; exact Nat.lt_succ_of_lt (hi.bound c k h)
    · intro x q h
      rcases hport x q h with ⟨rfl, -⟩ | ⟨-, h⟩
      · exact Nat.lt_succ_self _
      · exact Nat.lt_succ_of_lt (hi.pbound x q h)
    · intro x q c h hc
      rcases hport x q h with ⟨rfl, rfl⟩ | ⟨-, h⟩
      · cases hc
      · exact Nat.lt_succ_of_lt (hi.cbound x q c h hc)
    · exact hi.par
    · exact hi.child
    · exact hi.names
    · exact hi.atomic
    · intro c k kd x h hm
      obtain ⟨q, hq, hqc, hqk⟩ := hi.port c k kd x h hm
      exact ⟨q, by rw [← hq]; exact hold x (Nat.ne_of_lt (hi.pbound x q hq)), hqc, hqk⟩
    · intro x q c k h hc hk
      rcases hport x q h with ⟨rfl, rfl⟩ | ⟨-, h⟩
      · cases hc
      · exact hi.reg x q c k h hc hk
    · intro c k kd h
      refine (hi.pnames c k kd h).imp_of_mem ?_
      intro a b ha hb hne
      obtain ⟨qa, hqa, -⟩ := hi.port c k kd a h ha
      obtain ⟨qb, hqb, -⟩ := hi.port c k kd b h hb
      simpa [State.portName, State.setPort, Nat.ne_of_lt (hi.pbound a qa hqa), Nat.ne_of_lt (hi.pbound b qb hqb)] using hne
  | some c0 =>
    simp only [createPort] at h
    cases hk0 : s.comps c0 with
    | none => rw [hk0] at h; cases h
    | some k0 =>
      rw [hk0] at h
      simp only at h
      split_ifs at h with hfind
      · cases h; exact hi
      simp only [Outcome.ok.injEq, Prod.mk.injEq] at h
      obtain ⟨rfl, rfl⟩ := h
      set k1 := k0.setPorts kind (k0.ports kind ++ [s.next]) with hk1
      set s1 : State := (s.setComp c0 (some k1)).setPort s.next (some ⟨nm, some c0, kind, w⟩) with hs1
      have hport : ∀ x q, s1.ports x = some q →
          (x = s.next ∧ q = ⟨nm, some c0, kind, w⟩) ∨ (x ≠ s.next ∧ s.ports x = some q) := by
        intro x q h
        simp only [hs1, State.setPort, State.setComp] at h
        split_ifs at h with hx
        · exact Or.inl ⟨hx, by simpa using h.symm⟩
        · exact Or.inr ⟨hx, h⟩
      have hold : ∀ x, x ≠ s.next → s1.ports x = s.ports x := by
        intro x hx; simp [hs1, State.setPort, State.setComp, hx]
      have hnewp : s1.ports s.next = some ⟨nm, some c0, kind, w⟩ := by simp [hs1, State.setPort]
      have hval : ∀ c k, s1.comps c = some k → ∃ k', s.comps c = some k' ∧ k.name = k'.name ∧ k.composite = k'.composite ∧
          k.parent = k'.parent ∧ k.children = k'.children ∧
          ∀ kd, k.ports kd = if c = c0 ∧ kd = kind then k'.ports kd ++ [s.next] else k'.ports kd := by
        intro c k h
        simp only [hs1, State.setPort, State.setComp] at h
        split_ifs at h with hc
        · subst hc
          cases h
          refine ⟨k0, hk0, rfl, rfl, rfl, rfl, ?_⟩
          intro kd
          simp only [hk1, Comp.setPorts, true_and]
          split_ifs with hkd
          · rw [hkd]
          · rfl
        · exact ⟨k, h, rfl, rfl, rfl, rfl, fun kd => by simp [hc]⟩
      have hback : ∀ c k', s.comps c = some k' → ∃ k, s1.comps c = some k ∧ k.composite = k'.composite ∧
          k.parent = k'.parent ∧ k.children = k'.children := by
        intro c k' h
        simp only [hs1, State.setPort, State.setComp]
        by_cases hc : c = c0
        · subst hc
          rw [hk0] at h; cases h
          exact ⟨_, if_pos rfl, rfl, rfl, rfl⟩
        · exact ⟨k', by rw [if_neg hc, h], rfl, rfl, rfl⟩
      have hname : ∀ c, s1.compName c = s.compName c := by
        intro c
        simp only [State.compName, hs1, State.setPort, State.setComp]
        split_ifs with hc
        · subst hc; simp [hk0, hk1, Comp.setPorts]
        · rfl
      constructor
      · intro c k h
        obtain ⟨k', hk', -⟩ := hval c k h
        exact Nat.lt_succ_of_lt (hi.bound c k' hk')
      · intro x q h
        rcases hport x q h with ⟨rfl, -⟩ | ⟨-, h⟩
        · exact Nat.lt_succ_self _
        · exact Nat.lt_succ_of_lt (hi.pbound x q h)
      · intro x q c h hc
        rcases hport x q h with ⟨rfl, rfl⟩ | ⟨-, h⟩
        · simp only [Option.some.injEq] at hc
          subst hc
          exact Nat.lt_succ_of_lt (hi.bound _ _ hk0)
        · exact Nat.lt_succ_of_lt (hi.cbound x q c h hc)
      · intro c k p h hp
        obtain ⟨k', hk', -, -, hpar, -⟩ := hval c k h
        obtain ⟨hlt, q, hq, hqc, hm⟩ := hi.par c k' p hk' (by rw [← hpar, hp])
        obtain ⟨q', hq', hc', -, hch'⟩ := hback p q hq
        exact ⟨hlt, q', hq', by rw [hc', hqc], by rw [hch']; exact hm⟩
      · intro p q c h hm
        obtain ⟨q', hq', -, -, -, hch, -⟩ := hval p q h
        obtain ⟨k, hk, hp⟩ := hi.child p q' c hq' (by rw [← hch]; exact hm)
        obtain ⟨k', hk', -, hpar, -⟩ := hback c k hk
        exact ⟨k', hk', by rw [hpar, hp]⟩
      · intro p q h
        obtain ⟨q', hq', -, -, -, hch, -⟩ := hval p q h
        rw [hch]
        simp only [show ∀ c, State.compName { s1 with next := s.next + 1 } c = s.compName c from hname]
        exact hi.names p q' hq'
      · intro p q h hc
        obtain ⟨q', hq', -, hcomp, -, hch, -⟩ := hval p q h
        rw [hch]
        exact hi.atomic p q' hq' (by rw [← hcomp, hc])
      · intro c k kd x h hm
        obtain ⟨k', hk', -, -, -, -, hpo⟩ := hval c k h
        have hmold : x ∈ k'.ports kd → ∃ q, s1.ports x = some q ∧ q.comp = some c ∧ q.kind = kd := by
          intro hm'
          obtain ⟨q, hq, hqc, hqk⟩ := hi.port c k' kd x hk' hm'
          exact ⟨q, by rw [hold x (Nat.ne_of_lt (hi.pbound x q hq)), hq], hqc, hqk⟩
        rw [hpo] at hm
        split_ifs at hm with hc
        · obtain ⟨rfl, rfl⟩ := hc
          rcases List.mem_append.1 hm with hm | hm
          · exact hmold hm
          · simp only [List.mem_singleton] at hm
            subst hm
            exact ⟨_, hnewp, rfl, rfl⟩
        · exact hmold hm
      · intro x q c k h hc hk
        obtain ⟨k', hk', -, -, -, -, hpo⟩ := hval c k hk
        rw [hpo]
        rcases hport x q h with ⟨rfl, rfl⟩ | ⟨-, h⟩
        · simp only [Option.some.injEq] at hc
          subst hc
          simp
        · have := hi.reg x q c k' h hc hk'
          split_ifs
          · exact List.mem_append_left _ this
          · exact this
      · intro c k kd h
        obtain ⟨k', hk', -, -, -, -, hpo⟩ := hval c k h
        have hpw : (k'.ports kd).Pairwise fun a b => s1.portName a ≠ s1.portName b := by
          refine (hi.pnames c k' kd hk').imp_of_mem ?_
          intro a b ha hb hne
          obtain ⟨qa, hqa, -⟩ := hi.port c k' kd a hk' ha
          obtain ⟨qb, hqb, -⟩ := hi.port c k' kd b hk' hb
          unfold State.portName
          rw [hold a (Nat.ne_of_lt (hi.pbound a qa hqa)), hold b (Nat.ne_of_lt (hi.pbound b qb hqb))]
          exact hne
        show (k.ports kd).Pairwise fun a b => s1.portName a ≠ s1.portName b
        rw [hpo]
        split_ifs with hc
        · obtain ⟨rfl, rfl⟩ := hc
          rw [hk0] at hk'; cases hk'
          rw [List.pairwise_append]
          refine ⟨hpw, by simp, ?_⟩
          intro a ha b hb
          simp only [List.mem_singleton] at hb
          subst hb
          obtain ⟨qa, hqa, -⟩ := hi.port c k0 kd a hk0 ha
          intro heq
          apply hfind
          unfold findPortEntry
          rw [List.find?_isSome]
          refine ⟨a, ha, ?_⟩
          unfold State.portName at heq ⊢
          rw [hnewp, hold a (Nat.ne_of_lt (hi.pbound a qa hqa))] at heq
          simpa using heq
        · exact hpw

theorem destroyPort_inv {s s' : State} {r : Res} (hi : Inv s) {x0 : Nat} (h : destroyPort s x0 = .ok (s', r)) : Inv s' := by
  cases hx0 : s.ports x0 with
  | none => simp [destroyPort, hx0] at h
  | some q0 =>
    cases hc0 : q0.comp with
    | none =>
      simp only [destroyPort, hx0, hc0, Outcome.ok.injEq, Prod.mk.injEq] at h
      obtain ⟨rfl, rfl⟩ := h
      have hval : ∀ x q, (s.setPort x0 none).ports x = some q → x ≠ x0 ∧ s.ports x = some q := by
        intro x q h
        simp only [State.setPort] at h
        split_ifs at h with hx
        exact ⟨hx, h⟩
      have hnm : ∀ c k kd x, s.comps c = some k → x ∈ k.ports kd → x ≠ x0 := by
        rintro c k kd x hk hm rfl
        obtain ⟨q, hq, hqc, -⟩ := hi.port c k kd x hk hm
        rw [hx0] at hq; cases hq
        rw [hc0] at hqc; cases hqc
      constructor
      · exact hi.bound
      · intro x q h; exact hi.pbound x q (hval x q h).2
      · intro x q c h hc; exact hi.cbound x q c (hval x q h).2 hc
      · exact hi.par
      · exact hi.child
      · exact hi.names
      · exact hi.atomic
      · intro c k kd x h hm
        obtain ⟨q, hq, hqc, hqk⟩ := hi.port c k kd x h hm
        exact ⟨q, by simp [State.setPort, hnm c k kd x h hm, hq], hqc, hqk⟩
      · intro x q c k h hc hk
        exact hi.reg x q c k (hval x q h).2 hc hk
      · intro c k kd h
        refine (hi.pnames c k kd h).imp_of_mem ?_
        intro a b ha hb hne
        simpa [State.portName, State.setPort, hnm c k kd a h ha, hnm c k kd b h hb] using hne
    | some c0 =>
      cases hk0 : s.comps c0 with
      | none => simp [destroyPort, hx0, hc0, hk0] at h
      | some k0 =>
        simp only [destroyPort, hx0, hc0, hk0, Outcome.ok.injEq, Prod.mk.injEq] at h
        obtain ⟨rfl, rfl⟩ := h
        set k1 := k0.setPorts q0.kind ((k0.ports q0.kind).erase x0) with hk1
        set s1 : State := (s.setComp c0 (some k1)).setPort x0 none with hs1
        have hport : ∀ x q, s1.ports x = some q → x ≠ x0 ∧ s.ports x = some q := by
          intro x q h
          simp only [hs1, State.setPort, State.setComp] at h
          split_ifs at h with hx
          exact ⟨hx, h⟩
        have hold : ∀ x, x ≠ x0 → s1.ports x = s.ports x := by
          intro x hx; simp [hs1, State.setPort, State.setComp, hx]
        have hval : ∀ c k, s1.comps c = some k → ∃ k', s.comps c = some k' ∧ k.name = k'.name ∧
            k.composite = k'.composite ∧ k.parent = k'.parent ∧ k.children = k'.children ∧
            ∀ kd, k.ports kd = (k'.ports kd).erase x0 := by
          intro c k h
          simp only [hs1, State.setPort, State.setComp] at h
          split_ifs at h with hc
          · subst hc
            cases h
            refine ⟨k0, hk0, rfl, rfl, rfl, rfl, ?_⟩
            intro kd
            simp only [hk1, Comp.setPorts]
            split_ifs with hkd
            · rw [hkd]
            · rw [List.erase_of_not_mem]
              intro hm
              obtain ⟨q, hq, -, hqk⟩ := hi.port c k0 kd x0 hk0 hm
              rw [hx0] at hq; cases hq
              exact hkd hqk.symm
          · refine ⟨k, h, rfl, rfl, rfl, rfl, fun kd => ?_⟩
            rw [List.erase_of_not_mem]
            intro hm
            obtain ⟨q, hq, hqc, -⟩ := hi.port c k kd x0 h hm
            rw [hx0] at hq; cases hq
            rw [hc0] at hqc
            exact hc (by simpa using hqc.symm)
        have hback : ∀ c k', s.comps c = some k' → ∃ k, s1.comps c = some k ∧ k.composite = k'.composite ∧
            k.parent = k'.parent ∧ k.children = k'.children := by
          intro c k' h
          simp only [hs1, State.setPort, State.setComp]
          by_cases hc : c = c0
          · subst hc
            rw [hk0] at h; cases h
            exact ⟨_, if_pos rfl, rfl, rfl, rfl⟩
          · exact ⟨k', by rw [if_neg hc, h], rfl, rfl, rfl⟩
        have hname : ∀ c, s1.compName c = s.compName c := by
          intro c
          simp only [State.compName, hs1, State.setPort, State.setComp]
          split_ifs with hc
          · subst hc; simp [hk0, hk1, Comp.setPorts]
          · rfl
        constructor
        · intro c k h
          obtain ⟨k', hk', -⟩ := hval c k h
          exact hi.bound c k' hk'
        · intro x q h; exact hi.pbound x q (hport x q h).2
        · intro x q c h hc; exact hi.cbound x q c (hport x q h).2 hc
        · intro c k p h hp
          obtain ⟨k', hk', -, -, hpar, -⟩ := hval c k h
          obtain ⟨hlt, q, hq, hqc, hm⟩ := hi.par c k' p hk' (by rw [← hpar, hp])
          obtain ⟨q', hq', hc', -, hch'⟩ := hback p q hq
          exact ⟨hlt, q', hq', by rw [hc', hqc], by rw [hch']; exact hm⟩
        · intro p q c h hm
          obtain ⟨q', hq', -, -, -, hch, -⟩ := hval p q h
          obtain ⟨k, hk, hp⟩ := hi.child p q' c hq' (by rw [← hch]; exact hm)
          obtain ⟨k', hk', -, hpar, -⟩ := hback c k hk
          exact ⟨k', hk', by rw [hpar, hp]⟩
        · intro p q h
          obtain ⟨q', hq', -, -, -, hch, -⟩ := hval p q h
          rw [hch]
          simp only [hname]
          exact hi.names p q' hq'
        · intro p q h hc
          obtain ⟨q', hq', -, hcomp, -, hch, -⟩ := hval p q h
          rw [hch]
          exact hi.atomic p q' hq' (by rw [← hcomp, hc])
        · intro c k kd x h hm
          obtain ⟨k', hk', -, -, -, -, hpo⟩ := hval c k h
          rw [hpo] at hm
          have hnd := nodup_of_names (hi.pnames c k' kd hk')
          rw [hnd.mem_erase_iff] at hm
          obtain ⟨q, hq, hqc, hqk⟩ := hi.port c k' kd x hk' hm.2
          exact ⟨q, by rw [hold x hm.1, hq], hqc, hqk⟩
        · intro x q c k h hc hk
          obtain ⟨k', hk', -, -, -, -, hpo⟩ := hval c k hk
          obtain ⟨hx, hq⟩ := hport x q h
          rw [hpo, (List.mem_erase_of_ne hx)]
          exact hi.reg x q c k' hq hc hk'
        · intro c k kd h
          obtain ⟨k', hk', -, -, -, -, hpo⟩ := hval c k h
          rw [hpo]
          have hnd := nodup_of_names (hi.pnames c k' kd hk')
          refine ((hi.pnames c k' kd hk').sublist List.erase_sublist).imp_of_mem ?_
          intro a b ha hb hne
          rw [hnd.mem_erase_iff] at ha hb
          unfold State.portName
          rw [hold a ha.1, hold b hb.1]
          exact hne

theorem audioConnection_inv {s s' : State} {r : Res} (hi : Inv s) {p send recv : Nat} {si ri : List Nat}
    (h : audioConnection s p send si recv ri = .ok (s', r)) : Inv s' := by
  unfold audioConnection thrown at h
  split at h
  · cases h
  · rename_i q hq
    split at h
    · cases h
    · cases h; exact hi
    · split at h
      · cases h
      · cases h; exact hi
      · split_ifs at h
        · cases h; exact hi
        · cases h; exact hi
        · cases h; exact hi
        · cases h; exact hi
        · cases h; exact hi.conns hq _ _

theorem step_inv {s s' : State} {r : Res} (hi : Inv s) {o : Op} (h : step s o = .ok (s', r)) : Inv s' := by
  cases o with
  | create nm b p => exact create_inv hi h
  | destroy c => exact destroy_inv hi h
  | createPort kind nm w c => exact createPort_inv hi h
  | destroyPort p => exact destroyPort_inv hi h
  | audio p send si recv ri => exact audioConnection_inv hi h
  | audioAll p send recv =>
    simp only [step, audioConnectionAll, thrown] at h
    split_ifs at h
    · split at h
      · cases h
      · cases h; exact hi
      · split at h
        · cases h
        · cases h; exact hi
        · cases h; exact hi
    · exact audioConnection_inv hi h
  | audioNames p sc sp si rc rp ri =>
    simp only [step, audioConnectionNames, thrown] at h
    split at h
    · cases h
    · rename_i q hq
      split at h
      · split_ifs at h
        cases h; exact hi
      · split at h
        · split_ifs at h
          cases h; exact hi
        · cases h; exact hi.conns hq _ _
  | param p send recv =>
    simp only [step, paramConnection, thrown] at h
    split at h
    · cases h
    · rename_i q hq
      split at h
      · cases h
      · cases h; exact hi
      · split at h
        · cases h
        · cases h; exact hi
        · cases h; exact hi.conns hq _ _
  | paramNames p sc sp rc rp =>
    simp only [step, paramConnectionNames, thrown] at h
    split at h
    · cases h
    · rename_i q hq
      split at h
      · split_ifs at h
        cases h; exact hi
      · split at h
        · split_ifs at h
          cases h; exact hi
        · cases h; exact hi.conns hq _ _

theorem reachable_inv {s : State} (h : Reachable s) : Inv s := by
  obtain ⟨ops, h⟩ := h
  have key : ∀ (ops : List Op) s0, Inv s0 → history s0 ops = .ok s → Inv s := by
    intro ops
    induction ops with
    | nil => intro s0 h0 h; cases h; exact h0
    | cons o os ih =>
      intro s0 h0 h
      unfold history at h
      split at h
      · rename_i s1 r1 hs1
        exact ih s1 (step_inv h0 hs1) h
      · cases h
      · cases h
  exact key ops _ Inv.empty h

end Visr.Tree
