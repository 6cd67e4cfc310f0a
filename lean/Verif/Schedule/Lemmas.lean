import Verif.Schedule.Model
import Mathlib.Logic.Relation
import Mathlib.Data.List.Nodup
import Mathlib.Data.List.Perm.Basic
import Mathlib.Tactic.Common

/-!
# Depth-first search: helper lemmas
-/

namespace Visr.Schedule
open Visr Relation

/-! ## Sets of addresses -/

theorem mem_setInsert {x y : Nat} {l : List Nat} : y ∈ setInsert x l ↔ y = x ∨ y ∈ l := by
  induction l with
  | nil => simp [setInsert]
  | cons z zs ih =>
    unfold setInsert
    split_ifs with h1 h2
    · simp
    · subst h2; simp
    · simp [ih]; tauto

theorem mem_foldl_setInsert {y : Nat} (l s : List Nat) :
    y ∈ l.foldl (fun s x => setInsert x s) s ↔ y ∈ l ∨ y ∈ s := by
  induction l generalizing s with
  | nil => simp
  | cons x xs ih => simp [ih, mem_setInsert]; tauto

theorem mem_toSet {y : Nat} {l : List Nat} : y ∈ toSet l ↔ y ∈ l := by
  simp [toSet, mem_foldl_setInsert]

theorem sorted_setInsert {x : Nat} {l : List Nat} (h : l.Pairwise (· < ·)) : (setInsert x l).Pairwise (· < ·) := by
  induction l with
  | nil => simp [setInsert]
  | cons z zs ih =>
    unfold setInsert
    rw [List.pairwise_cons] at h
    split_ifs with h1 h2
    · rw [List.pairwise_cons, List.pairwise_cons]
      refine ⟨?_, h.1, h.2⟩
      intro b hb
      rcases List.mem_cons.1 hb with rfl | hb
      · exact h1
      · exact Nat.lt_trans h1 (h.1 _ hb)
    · exact List.pairwise_cons.2 h
    · rw [List.pairwise_cons]
      refine ⟨?_, ih h.2⟩
      intro b hb
      rcases mem_setInsert.1 hb with rfl | hb
      · omega
      · exact h.1 _ hb

theorem sorted_toSet (l : List Nat) : (toSet l).Pairwise (· < ·) := by
  unfold toSet
  suffices h : ∀ s : List Nat, s.Pairwise (· < ·) → (l.foldl (fun s x => setInsert x s) s).Pairwise (· < ·) from
    h [] List.Pairwise.nil
  induction l with
  | nil => intro s hs; exact hs
  | cons x xs ih => intro s hs; exact ih _ (sorted_setInsert hs)

theorem nodup_toSet (l : List Nat) : (toSet l).Nodup :=
  (sorted_toSet l).imp (fun h => Nat.ne_of_lt h)

theorem length_toSet {l : List Nat} (h : l.Nodup) : (toSet l).length = l.length :=
  ((List.perm_ext_iff_of_nodup (nodup_toSet l) h).2 fun _ => mem_toSet).length_eq

/-! ## Depth-first search -/

/-- Edge relation of a graph. -/
def Graph.E (g : Graph) (u w : Node) : Prop := (u, w) ∈ g.edges

theorem mem_adj {g : Graph} {u w : Node} : w ∈ g.adj u ↔ g.E u w := by
  unfold Graph.adj Graph.E
  simp only [List.mem_filterMap]
  constructor
  · rintro ⟨⟨a, b⟩, h, e⟩
    simp only [Option.ite_none_right_eq_some, Option.some.injEq] at e
    obtain ⟨rfl, rfl⟩ := e
    exact h
  · intro h
    exact ⟨(u, w), h, by simp⟩

/-- The graph has a cycle. -/
def Graph.Cyclic (g : Graph) : Prop := ∃ x, TransGen g.E x x

/-- Consistency of a search state. -/
structure Good (g : Graph) (s : Dfs) : Prop where
  black : ∀ x, s.color x = .black ↔ x ∈ s.out
  nodup : s.out.Nodup
  order : s.back = [] → ∀ a x b, s.out = a ++ x :: b → ∀ w, g.E x w → w ∈ b
  sound : s.back ≠ [] → g.Cyclic
  mem : ∀ x ∈ s.out, x ∈ g.verts

/-- What a visit changes: gray vertices stay gray, black ones stay black, white ones stay white or become black, back
edges are only added. -/
structure Grows (s s' : Dfs) : Prop where
  gray : ∀ x, s'.color x = .gray ↔ s.color x = .gray
  black : ∀ x, s.color x = .black → s'.color x = .black
  back : s'.back = [] → s.back = []

theorem Grows.refl (s : Dfs) : Grows s s := ⟨fun _ => Iff.rfl, fun _ h => h, fun h => h⟩

theorem Grows.trans {a b c : Dfs} (h : Grows a b) (k : Grows b c) : Grows a c :=
  ⟨fun x => (k.gray x).trans (h.gray x), fun x hx => k.black x (h.black x hx), fun hb => h.back (k.back hb)⟩

/-- The specification of one visit. -/
def VisitSpec (g : Graph) (visit : Node → Dfs → Option Dfs) : Prop :=
  ∀ v s s', v ∈ g.verts → Good g s → s.color v = .white → (∀ x, s.color x = .gray → TransGen g.E x v) →
    visit v s = some s' → Good g s' ∧ Grows s s' ∧ s'.color v = .black

theorem outLoop_spec {g : Graph} (hcl : ∀ u w, g.E u w → w ∈ g.verts) {vis : Node → Dfs → Option Dfs} (hv : VisitSpec g vis) {v : Node} :
    ∀ (ws : List Node) (s s' : Dfs), (∀ w ∈ ws, g.E v w) → Good g s → s.color v = .gray →
      (∀ x, s.color x = .gray → ReflTransGen g.E x v) → outLoop vis v ws s = some s' →
      Good g s' ∧ Grows s s' ∧ (s'.back = [] → ∀ w ∈ ws, s'.color w = .black) := by
  intro ws
  induction ws with
  | nil =>
    intro s s' _ hg _ _ h
    simp only [outLoop, Option.some.injEq] at h
    subst h
    exact ⟨hg, Grows.refl _, by simp⟩
  | cons w ws ih =>
    intro s s' hE hg hgv hanc h
    have hvw : g.E v w := hE w (by simp)
    have hE' : ∀ w ∈ ws, g.E v w := fun x hx => hE x (by simp [hx])
    unfold outLoop at h
    cases hc : s.color w with
    | white =>
      simp only [hc] at h
      cases hvis : vis w s with
      | none => simp [hvis] at h
      | some s1 =>
        simp only [hvis] at h
        obtain ⟨g1, gr1, b1⟩ := hv w s s1 (hcl _ _ hvw) hg hc (fun x hx => TransGen.tail' (hanc x hx) hvw) hvis
        obtain ⟨g2, gr2, b2⟩ := ih s1 s' hE' g1 ((gr1.gray v).2 hgv) (fun x hx => hanc x ((gr1.gray x).1 hx)) h
        refine ⟨g2, gr1.trans gr2, ?_⟩
        intro hb x hx
        rcases List.mem_cons.1 hx with rfl | hx
        · exact gr2.black _ b1
        · exact b2 hb x hx
    | gray =>
      simp only [hc] at h
      have hcyc : g.Cyclic := ⟨w, TransGen.tail' (hanc w hc) hvw⟩
      have g1 : Good g { s with back := (v, w) :: s.back } :=
        ⟨hg.black, hg.nodup, by simp, fun _ => hcyc, hg.mem⟩
      obtain ⟨g2, gr2, b2⟩ := ih _ s' hE' g1 hgv hanc h
      have hne : s'.back ≠ [] := fun hb => by simpa using gr2.back hb
      exact ⟨g2, ⟨gr2.gray, gr2.black, fun hb => absurd hb hne⟩, fun hb => absurd hb hne⟩
    | black =>
      simp only [hc] at h
      obtain ⟨g2, gr2, b2⟩ := ih s s' hE' hg hgv hanc h
      refine ⟨g2, gr2, ?_⟩
      intro hb x hx
      rcases List.mem_cons.1 hx with rfl | hx
      · exact gr2.black _ hc
      · exact b2 hb x hx

theorem visit_spec {g : Graph} (hcl : ∀ u w, g.E u w → w ∈ g.verts) (n : Nat) : VisitSpec g (visit g n) := by
  induction n with
  | zero => intro v s s' _ _ _ _ h; simp [visit] at h
  | succ n ih =>
    intro v s s' hvm hg hw hanc h
    unfold visit at h
    cases hl : outLoop (visit g n) v (g.adj v) (s.paint v .gray) with
    | none => simp [hl] at h
    | some s1 =>
      simp only [hl, Option.some.injEq] at h
      have g0 : Good g (s.paint v .gray) := by
        refine ⟨?_, hg.nodup, hg.order, hg.sound, hg.mem⟩
        intro x
        show (if x = v then Color.gray else s.color x) = .black ↔ x ∈ s.out
        by_cases hx : x = v
        · subst hx
          have : x ∉ s.out := fun hm => by rw [(hg.black x).2 hm] at hw; cases hw
          simp [this]
        · rw [if_neg hx]; exact hg.black x
      have c0 : (s.paint v .gray).color v = .gray := by simp [Dfs.paint]
      have a0 : ∀ x, (s.paint v .gray).color x = .gray → ReflTransGen g.E x v := by
        intro x hx
        by_cases hxv : x = v
        · subst hxv; exact ReflTransGen.refl
        · have : s.color x = .gray := by simpa [Dfs.paint, hxv] using hx
          exact (hanc x this).to_reflTransGen
      obtain ⟨g1, gr1, b1⟩ := outLoop_spec hcl ih (g.adj v) _ s1 (fun w hw => mem_adj.1 hw) g0 c0 a0 hl
      have hv1 : s1.color v = .gray := (gr1.gray v).2 c0
      have hvout : v ∉ s1.out := fun hm => by rw [(g1.black v).2 hm] at hv1; cases hv1
      subst h
      refine ⟨⟨?_, ?_, ?_, g1.sound, ?_⟩, ⟨?_, ?_, ?_⟩, by simp [Dfs.paint]⟩
      · intro x
        show (if x = v then Color.black else s1.color x) = .black ↔ x ∈ v :: s1.out
        by_cases hx : x = v
        · simp [hx]
        · rw [if_neg hx, g1.black x]; simp [hx]
      · exact List.nodup_cons.2 ⟨hvout, g1.nodup⟩
      · intro hb a x b hab w hxw
        cases a with
        | nil =>
          obtain ⟨rfl, rfl⟩ := List.cons.inj hab
          exact (g1.black w).1 (b1 hb w (mem_adj.2 hxw))
        | cons y a =>
          have hab := (List.cons.inj hab).2
          exact g1.order hb a x b hab w hxw
      · intro x hx
        rcases List.mem_cons.1 hx with rfl | hx
        · exact hvm
        · exact g1.mem x hx
      · intro x
        show (if x = v then Color.black else s1.color x) = .gray ↔ _
        by_cases hx : x = v
        · subst hx; simp [hw]
        · rw [if_neg hx, gr1.gray x]; simp [Dfs.paint, hx]
      · intro x hx
        show (if x = v then Color.black else s1.color x) = .black
        by_cases hxv : x = v
        · simp [hxv]
        · rw [if_neg hxv]
          exact gr1.black x (by simpa [Dfs.paint, hxv] using hx)
      · intro hb; exact gr1.back hb

/-! ### The recursion depth is bounded by the number of vertices -/

/-- Number of white vertices. -/
def whites (vs : List Node) (s : Dfs) : Nat := vs.countP fun v => s.color v = .white

theorem whites_mono {vs : List Node} {s s' : Dfs} (h : ∀ x, s'.color x = .white → s.color x = .white) :
    whites vs s' ≤ whites vs s := by
  unfold whites
  apply List.countP_mono_left
  intro x _ hx
  simpa using h x (by simpa using hx)

theorem grows_white {s s' : Dfs} (h : Grows s s') (x : Node) (hx : s'.color x = .white) : s.color x = .white := by
  cases hc : s.color x with
  | white => rfl
  | gray => rw [(h.gray x).2 hc] at hx; cases hx
  | black => rw [h.black x hc] at hx; cases hx

theorem whites_paint_lt {vs : List Node} {s : Dfs} {v : Node} (hv : v ∈ vs) (hw : s.color v = .white) :
    whites vs (s.paint v .gray) < whites vs s := by
  unfold whites
  induction vs with
  | nil => cases hv
  | cons u us ih =>
    have hle : List.countP (fun v_1 => decide ((s.paint v .gray).color v_1 = .white)) us
        ≤ List.countP (fun v => decide (s.color v = .white)) us := by
      apply List.countP_mono_left
      intro x _ hx
      by_cases hxv : x = v
      · subst hxv; simpa using hw
      · simpa [Dfs.paint, hxv] using hx
    rw [List.countP_cons, List.countP_cons]
    by_cases huv : u = v
    · subst huv
      simp only [Dfs.paint, if_true, hw] at hle ⊢
      simp
      omega
    · have hv' : v ∈ us := by
        rcases List.mem_cons.1 hv with rfl | h
        · exact absurd rfl huv
        · exact h
      have := ih hv'
      have e : (s.paint v .gray).color u = s.color u := by simp [Dfs.paint, huv]
      rw [e]
      omega

theorem visit_total {g : Graph} (hcl : ∀ u w, g.E u w → w ∈ g.verts) (n : Nat) :
    ∀ v s, v ∈ g.verts → s.color v = .white → whites g.verts s ≤ n → Good g s →
      (∀ x, s.color x = .gray → TransGen g.E x v) → ∃ s', visit g n v s = some s' := by
  induction n with
  | zero =>
    intro v s hv hw hn _ _
    have : 0 < whites g.verts s := by
      unfold whites
      exact List.countP_pos_iff.2 ⟨v, hv, by simp [hw]⟩
    omega
  | succ n ih =>
    intro v s hv hw hn hg hanc
    have hloop : ∀ (ws : List Node) (s : Dfs), (∀ w ∈ ws, g.E v w) → Good g s → s.color v = .gray →
        (∀ x, s.color x = .gray → ReflTransGen g.E x v) → whites g.verts s ≤ n →
        ∃ s', outLoop (visit g n) v ws s = some s' := by
      intro ws
      induction ws with
      | nil => intro s _ _ _ _ _; exact ⟨s, rfl⟩
      | cons w ws ihw =>
        intro s hE hg hgv hanc hle
        have hvw : g.E v w := hE w (by simp)
        have hE' : ∀ w ∈ ws, g.E v w := fun x hx => hE x (by simp [hx])
        unfold outLoop
        cases hc : s.color w with
        | white =>
          have hanc' : ∀ x, s.color x = .gray → TransGen g.E x w := fun x hx => TransGen.tail' (hanc x hx) hvw
          obtain ⟨s1, h1⟩ := ih w s (hcl _ _ hvw) hc hle hg hanc'
          obtain ⟨g1, gr1, _⟩ := visit_spec hcl n w s s1 (hcl _ _ hvw) hg hc hanc' h1
          simp only [h1]
          exact ihw s1 hE' g1 ((gr1.gray v).2 hgv) (fun x hx => hanc x ((gr1.gray x).1 hx))
            (Nat.le_trans (whites_mono (grows_white gr1)) hle)
        | gray =>
          exact ihw _ hE' ⟨hg.black, hg.nodup, by simp, fun _ => ⟨w, TransGen.tail' (hanc w hc) hvw⟩, hg.mem⟩ hgv hanc hle
        | black => exact ihw s hE' hg hgv hanc hle
    have g0 : Good g (s.paint v .gray) := by
      refine ⟨?_, hg.nodup, hg.order, hg.sound, hg.mem⟩
      intro x
      show (if x = v then Color.gray else s.color x) = .black ↔ x ∈ s.out
      by_cases hx : x = v
      · subst hx
        have : x ∉ s.out := fun hm => by rw [(hg.black x).2 hm] at hw; cases hw
        simp [this]
      · rw [if_neg hx]; exact hg.black x
    have a0 : ∀ x, (s.paint v .gray).color x = .gray → ReflTransGen g.E x v := by
      intro x hx
      by_cases hxv : x = v
      · subst hxv; exact ReflTransGen.refl
      · have : s.color x = .gray := by simpa [Dfs.paint, hxv] using hx
        exact (hanc x this).to_reflTransGen
    have hlt := whites_paint_lt hv hw
    obtain ⟨s1, h1⟩ := hloop (g.adj v) (s.paint v .gray) (fun w hw => mem_adj.1 hw) g0 (by simp [Dfs.paint]) a0
      (by omega)
    unfold visit
    simp only [h1]
    exact ⟨_, rfl⟩

/-! ### Search over all vertices -/

theorem good_start (g : Graph) : Good g Dfs.start :=
  ⟨by simp [Dfs.start], by simp [Dfs.start], by simp [Dfs.start], by simp [Dfs.start], by simp [Dfs.start]⟩

theorem start_gray (x : Node) : Dfs.start.color x ≠ .gray := by simp [Dfs.start]

theorem whites_le (vs : List Node) (s : Dfs) : whites vs s ≤ vs.length := List.countP_le_length

theorem searchLoop_spec {g : Graph} (hcl : ∀ u w, g.E u w → w ∈ g.verts) :
    ∀ (vs : List Node) (s : Dfs), (∀ v ∈ vs, v ∈ g.verts) → Good g s → (∀ x, s.color x ≠ .gray) →
      ∃ s', searchLoop g g.verts.length vs s = some s' ∧ Good g s' ∧ Grows s s' ∧ (∀ x, s'.color x ≠ .gray) ∧
        ∀ v ∈ vs, s'.color v = .black := by
  intro vs
  induction vs with
  | nil => intro s _ hg hgr; exact ⟨s, rfl, hg, Grows.refl s, hgr, by simp⟩
  | cons v vs ih =>
    intro s hall hg hgr
    have hall' : ∀ v ∈ vs, v ∈ g.verts := fun x hx => hall x (by simp [hx])
    unfold searchLoop
    cases hc : s.color v with
    | white =>
      have hanc : ∀ x, s.color x = .gray → TransGen g.E x v := fun x hx => absurd hx (hgr x)
      obtain ⟨s1, h1⟩ := visit_total hcl g.verts.length v s (hall v (by simp)) hc (whites_le _ _) hg hanc
      obtain ⟨g1, gr1, b1⟩ := visit_spec hcl _ v s s1 (hall v (by simp)) hg hc hanc h1
      obtain ⟨s', h', g', gr', hg', hb'⟩ := ih s1 hall' g1 (fun x hx => hgr x ((gr1.gray x).1 hx))
      simp only [h1]
      refine ⟨s', h', g', gr1.trans gr', hg', ?_⟩
      intro x hx
      rcases List.mem_cons.1 hx with rfl | hx
      · exact gr'.black _ b1
      · exact hb' x hx
    | gray => exact absurd hc (hgr v)
    | black =>
      obtain ⟨s', h', g', gr', hg', hb'⟩ := ih s hall' hg hgr
      refine ⟨s', h', g', gr', hg', ?_⟩
      intro x hx
      rcases List.mem_cons.1 hx with rfl | hx
      · exact gr'.black _ hc
      · exact hb' x hx

/-- A graph with an order that has all successors of a vertex behind it has no cycle. -/
theorem acyclic_of_order {g : Graph} {out : List Node} (hn : out.Nodup) (hsrc : ∀ u w, g.E u w → u ∈ out)
    (ho : ∀ a x b, out = a ++ x :: b → ∀ w, g.E x w → w ∈ b) : ¬ g.Cyclic := by
  have key : ∀ x y, TransGen g.E x y → ∀ a b, out = a ++ x :: b → y ∈ b := by
    intro x y h
    induction h with
    | single h => intro a b hab; exact ho a x b hab _ h
    | tail h1 h2 ih =>
      intro a b hab
      have hb := ih a b hab
      obtain ⟨b1, b2, rfl⟩ := List.append_of_mem hb
      have := ho (a ++ x :: b1) _ b2 (by rw [hab]; simp) _ h2
      simp [this]
  rintro ⟨x, hx⟩
  obtain ⟨y, hxy, _⟩ := TransGen.head'_iff.1 hx
  obtain ⟨a, b, hab⟩ := List.append_of_mem (hsrc x y hxy)
  have hxb := key x x hx a b hab
  rw [hab] at hn
  have := (List.nodup_append.1 hn).2.1
  exact (List.nodup_cons.1 this).1 hxb

/-- Result of the search over all vertices: a back edge is found iff there is a cycle; otherwise all vertices are
finished, each once, and before each vertex (in order of finishing) come its successors. -/
theorem search_spec {g : Graph} (hcl : ∀ u w, g.E u w → u ∈ g.verts ∧ w ∈ g.verts) :
    ∃ s, searchLoop g g.verts.length g.verts .start = some s ∧ s.out.Nodup ∧
      (s.back = [] ↔ ¬ g.Cyclic) ∧ (∀ v, v ∈ s.out ↔ v ∈ g.verts) ∧
      (s.back = [] → ∀ a x b, s.out = a ++ x :: b → ∀ w, g.E x w → w ∈ b) := by
  obtain ⟨s, h, hg, _, _, hb⟩ := searchLoop_spec (fun u w h => (hcl u w h).2) g.verts .start (fun v h => h)
    (good_start g) start_gray
  have hmem : ∀ v ∈ g.verts, v ∈ s.out := fun v hv => (hg.black v).1 (hb v hv)
  refine ⟨s, h, hg.nodup, ⟨?_, ?_⟩, fun v => ⟨hg.mem v, hmem v⟩, hg.order⟩
  · intro hbk
    exact acyclic_of_order hg.nodup (fun u w huw => hmem u (hcl u w huw).1) (hg.order hbk)
  · intro hnc
    by_contra hne
    exact hnc (hg.sound hne)

end Visr.Schedule
