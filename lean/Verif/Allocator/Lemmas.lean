import Verif.Allocator.Model
import Mathlib.Tactic.Common
import Mathlib.Data.List.Perm.Basic
import Mathlib.Data.List.Nodup

namespace Visr.Allocator
open Visr

/-- The entries are in strict key order. -/
def Keyed (m : List (Nat × Nat)) : Prop := m.Pairwise (fun a b => a.1 < b.1)

theorem purge_spec (ids : List Nat) (l : List (Nat × Nat)) (u : List Nat) (hi : ids.Pairwise (· < ·)) (hl : Keyed l) :
    (purge ids l u).1 = l.filter (fun e => decide (e.1 ∈ ids)) ∧
      ((purge ids l u).1.map Prod.snd ++ (purge ids l u).2).Perm (l.map Prod.snd ++ u) := by
  fun_induction purge ids l u with
  | case1 _ u => simp
  | case2 u e l ih =>
    obtain ⟨h1, h2⟩ := ih hi (List.pairwise_cons.1 hl).2
    refine ⟨by simp [h1], ?_⟩
    refine h2.trans ?_
    simp
  | case3 i is e l u hlt ih =>
    obtain ⟨h1, h2⟩ := ih (List.pairwise_cons.1 hi).2 hl
    refine ⟨?_, h2⟩
    rw [h1]
    apply List.filter_congr
    intro x hx
    have hx1 : e.1 ≤ x.1 := by
      rcases List.mem_cons.1 hx with rfl | hx
      · exact Nat.le_refl _
      · exact Nat.le_of_lt ((List.pairwise_cons.1 hl).1 x hx)
    have : x.1 ≠ i := by omega
    simp [this]
  | case4 is e l u r hlt ih =>
    obtain ⟨h1, h2⟩ := ih (List.pairwise_cons.1 hi).2 (List.pairwise_cons.1 hl).2
    refine ⟨?_, ?_⟩
    · simp only [List.filter_cons, List.mem_cons, true_or, decide_true, if_true, List.cons.injEq, true_and]
      rw [h1]
      apply List.filter_congr
      intro x hx
      have : x.1 ≠ e.1 := Nat.ne_of_gt ((List.pairwise_cons.1 hl).1 x hx)
      simp [this]
    · simpa using h2
  | case5 i is e l u hlt heq ih =>
    obtain ⟨h1, h2⟩ := ih hi (List.pairwise_cons.1 hl).2
    refine ⟨?_, ?_⟩
    · rw [h1]
      have : e.1 ∉ i :: is := by
        intro hm
        rcases List.mem_cons.1 hm with h | h
        · omega
        · have := (List.pairwise_cons.1 hi).1 _ h; omega
      rw [List.filter_cons, if_neg (by simpa using this)]
    · refine h2.trans ?_
      simp

theorem insertEntry_perm (e : Nat × Nat) (m : List (Nat × Nat)) : (insertEntry e m).Perm (e :: m) := by
  induction m with
  | nil => exact List.Perm.refl _
  | cons x l ih =>
    simp only [insertEntry]
    split
    · exact List.Perm.refl _
    · exact (ih.cons x).trans (List.Perm.swap _ _ _)

theorem insertEntry_keyed (e : Nat × Nat) (m : List (Nat × Nat)) (h : Keyed m) (hn : e.1 ∉ m.map Prod.fst) :
    Keyed (insertEntry e m) := by
  induction m with
  | nil => simp [insertEntry, Keyed]
  | cons x l ih =>
    simp only [insertEntry]
    have hx := List.pairwise_cons.1 h
    split
    · rename_i hlt
      refine List.pairwise_cons.2 ⟨?_, h⟩
      intro y hy
      rcases List.mem_cons.1 hy with rfl | hy
      · exact hlt
      · exact Nat.lt_trans hlt (hx.1 y hy)
    · rename_i hlt
      simp only [List.map_cons, List.mem_cons, not_or] at hn
      refine List.pairwise_cons.2 ⟨?_, ih hx.2 hn.2⟩
      intro y hy
      have := (insertEntry_perm e l).mem_iff.1 hy
      rcases List.mem_cons.1 this with rfl | hy
      · omega
      · exact hx.1 y hy

structure AllocSpec (ids : List Nat) (m : List (Nat × Nat)) (u : List Nat)
    (r : (List (Nat × Nat) × List Nat) × Outcome Unit) : Prop where
  ok : r.2 = .ok ()
  keyed : Keyed r.1.1
  perm : (r.1.1.map Prod.snd ++ r.1.2).Perm (m.map Prod.snd ++ u)
  keep : ∀ e ∈ m, e ∈ r.1.1
  keys : ∀ k, k ∈ r.1.1.map Prod.fst ↔ k ∈ m.map Prod.fst ∨ k ∈ ids

theorem alloc_new {i c : Nat} {is : List Nat} {m : List (Nat × Nat)} {u : List Nat}
    {r : (List (Nat × Nat) × List Nat) × Outcome Unit}
    (h : AllocSpec is (insertEntry (i, c) m) u r) : AllocSpec (i :: is) m (c :: u) r := by
  have hp := insertEntry_perm (i, c) m
  refine ⟨h.ok, h.keyed, h.perm.trans ?_, fun e he => h.keep e (hp.mem_iff.2 (by simp [he])), fun k => ?_⟩
  · have := (hp.map Prod.snd).append_right u
    refine this.trans ?_
    simp only [List.map_cons, List.cons_append]
    exact List.perm_middle.symm
  · rw [h.keys k, (hp.map Prod.fst).mem_iff]
    simp only [List.map_cons, List.mem_cons]
    tauto

theorem allocate_spec (ids : List Nat) (rest m : List (Nat × Nat)) (u : List Nat) (hi : ids.Pairwise (· < ·))
    (hr : Keyed rest) (hm : Keyed m) (hk : ∀ i ∈ ids, i ∈ m.map Prod.fst ↔ i ∈ rest.map Prod.fst)
    (hsub : ∀ k ∈ rest.map Prod.fst, k ∈ ids) (hu : ids.length ≤ rest.length + u.length) :
    AllocSpec ids m u (allocate ids rest m u) := by
  fun_induction allocate ids rest m u with
  | case1 rest m u => exact ⟨rfl, hm, List.Perm.refl _, fun _ h => h, fun k => by simp⟩
  | case2 i is m => simp at hu
  | case3 i is m c u hmem => exact absurd ((hk i (by simp)).1 hmem) (by simp)
  | case4 i is m c u hmem ih =>
    refine alloc_new (ih (List.pairwise_cons.1 hi).2 hr (insertEntry_keyed _ _ hm hmem) ?_ (by simp)
      (by simp at hu ⊢; omega))
    intro j hj
    have hij := (List.pairwise_cons.1 hi).1 j hj
    have hp := ((insertEntry_perm (i, c) m).map Prod.fst).mem_iff (a := j)
    rw [hp, ← hk j (by simp [hj])]
    simp only [List.map_cons, List.mem_cons]
    constructor
    · rintro (h | h)
      · omega
      · exact h
    · exact Or.inr
  | case5 i is e r m hlt =>
    -- `i` is new, and the remaining entries need all remaining ids
    exfalso
    simp only [List.length_cons, List.length_nil, Nat.add_zero] at hu
    have hnd : ((e :: r).map Prod.fst).Nodup := by
      have : ((e :: r).map Prod.fst).Pairwise (· < ·) := List.pairwise_map.2 hr
      exact this.imp (fun h => Nat.ne_of_lt h)
    have hsub' : ((e :: r).map Prod.fst) ⊆ is := by
      intro k hk'
      rcases List.mem_cons.1 (hsub k hk') with rfl | h
      · exfalso
        rw [List.map_cons, List.mem_cons] at hk'
        rcases hk' with h | h
        · omega
        · obtain ⟨x, hx, rfl⟩ := List.mem_map.1 h
          have := (List.pairwise_cons.1 hr).1 x hx; omega
      · exact h
    have := (List.subperm_of_subset hnd hsub').length_le
    simp only [List.length_map, List.length_cons] at this
    omega
  | case6 i is e r m hlt c u hmem =>
    exfalso
    have := (hk i (by simp)).1 hmem
    rw [List.map_cons, List.mem_cons] at this
    rcases this with h | h
    · omega
    · obtain ⟨x, hx, rfl⟩ := List.mem_map.1 h
      have := (List.pairwise_cons.1 hr).1 x hx; omega
  | case7 i is e r m hlt c u hmem ih =>
    refine alloc_new (ih (List.pairwise_cons.1 hi).2 hr (insertEntry_keyed _ _ hm hmem) ?_ ?_
      (by simp at hu ⊢; omega))
    · intro j hj
      have hij := (List.pairwise_cons.1 hi).1 j hj
      have hp := ((insertEntry_perm (i, c) m).map Prod.fst).mem_iff (a := j)
      rw [hp, ← hk j (by simp [hj])]
      rw [List.map_cons, List.mem_cons]
      constructor
      · rintro (h | h)
        · simp only at h; omega
        · exact h
      · exact Or.inr
    · intro k hk'
      rcases List.mem_cons.1 (hsub k hk') with rfl | h
      · exfalso
        rw [List.map_cons, List.mem_cons] at hk'
        rcases hk' with h | h
        · omega
        · obtain ⟨x, hx, rfl⟩ := List.mem_map.1 h
          have := (List.pairwise_cons.1 hr).1 x hx; omega
      · exact h
  | case8 i is e r m u hlt ih =>
    have he : e.1 = i := by
      rcases List.mem_cons.1 (hsub e.1 (by simp)) with h | h
      · exact h
      · have := (List.pairwise_cons.1 hi).1 _ h; omega
    have h := ih (List.pairwise_cons.1 hi).2 (List.pairwise_cons.1 hr).2 hm ?_ ?_ (by simp at hu ⊢; omega)
    · refine ⟨h.ok, h.keyed, h.perm, h.keep, fun k => ?_⟩
      rw [h.keys k, List.mem_cons]
      have : i ∈ m.map Prod.fst := (hk i (by simp)).2 (by simp [he])
      constructor
      · rintro (h | h)
        · exact .inl h
        · exact .inr (.inr h)
      · rintro (h | rfl | h)
        · exact .inl h
        · exact .inl this
        · exact .inr h
    · intro j hj
      rw [hk j (by simp [hj]), List.map_cons, List.mem_cons]
      have hij := (List.pairwise_cons.1 hi).1 j hj
      constructor
      · rintro (h | h)
        · omega
        · exact h
      · exact Or.inr
    · intro k hk'
      rcases List.mem_cons.1 (hsub k (by rw [List.map_cons]; exact List.mem_cons_of_mem _ hk')) with rfl | h
      · exfalso
        obtain ⟨x, hx, hxk⟩ := List.mem_map.1 hk'
        have := (List.pairwise_cons.1 hr).1 x hx; omega
      · exact h

/-- The invariant of the allocator. -/
structure Inv (s : State) : Prop where
  keyed : Keyed s.lookup
  perm : (s.lookup.map Prod.snd ++ s.unused).Perm (List.range s.maxChannels)

theorem insertSorted_perm (a : Nat) (l : List Nat) : (insertSorted a l).Perm (a :: l) := by
  induction l with
  | nil => exact List.Perm.refl _
  | cons b l ih =>
    simp only [insertSorted]
    split
    · exact List.Perm.refl _
    · exact (ih.cons b).trans (List.Perm.swap _ _ _)

theorem sortIds_perm (l : List Nat) : (sortIds l).Perm l := by
  induction l with
  | nil => exact List.Perm.refl _
  | cons a l ih => exact (insertSorted_perm a _).trans (ih.cons a)

theorem sortIds_pairwise (l : List Nat) : (sortIds l).Pairwise (· ≤ ·) := by
  induction l with
  | nil => exact List.Pairwise.nil
  | cons a l ih =>
    simp only [sortIds]
    generalize sortIds l = m at ih
    induction m with
    | nil => simp [insertSorted]
    | cons b m ihm =>
      have hb := List.pairwise_cons.1 ih
      simp only [insertSorted]
      split
      · rename_i hab
        refine List.pairwise_cons.2 ⟨fun x hx => ?_, ih⟩
        rcases List.mem_cons.1 hx with rfl | hx
        · exact hab
        · exact Nat.le_trans hab (hb.1 x hx)
      · refine List.pairwise_cons.2 ⟨fun x hx => ?_, ihm hb.2⟩
        rcases List.mem_cons.1 ((insertSorted_perm a m).mem_iff.1 hx) with rfl | hx
        · omega
        · exact hb.1 x hx

theorem sorted_ids (ids : List Nat) (hn : ids.Nodup) :
    (sortIds ids).Pairwise (· < ·) := by
  have h1 := sortIds_pairwise ids
  have h2 : (sortIds ids).Nodup := (sortIds_perm ids).nodup_iff.2 hn
  refine (h1.and h2).imp ?_
  rintro a b ⟨h, h'⟩
  omega

theorem setObjects_spec (s : State) (h : Inv s) (ids : List Nat) (hn : ids.Nodup) (hl : ids.length ≤ s.maxChannels) :
    (setObjects s ids).2 = .ok () ∧ Inv (setObjects s ids).1 ∧ (setObjects s ids).1.maxChannels = s.maxChannels ∧
      (∀ k, k ∈ (setObjects s ids).1.lookup.map Prod.fst ↔ k ∈ ids) ∧
      (∀ e ∈ s.lookup, e.1 ∈ ids → e ∈ (setObjects s ids).1.lookup) := by
  have hs := sorted_ids ids hn
  have hmem : ∀ k, k ∈ sortIds ids ↔ k ∈ ids := fun k => (sortIds_perm ids).mem_iff
  have hlen := (sortIds_perm ids).length_eq
  obtain ⟨hp1, hp2⟩ := purge_spec _ s.lookup s.unused hs h.keyed
  have hk1 : Keyed (purge (sortIds ids) s.lookup s.unused).1 := by
    rw [hp1]; exact h.keyed.filter _
  have hkeys : ∀ k, k ∈ (purge (sortIds ids) s.lookup s.unused).1.map Prod.fst → k ∈ ids := by
    intro k hk
    rw [hp1] at hk
    obtain ⟨x, hx, rfl⟩ := List.mem_map.1 hk
    have := (List.mem_filter.1 hx).2
    exact (hmem _).1 (by simpa using this)
  have htot := (hp2.trans h.perm).length_eq
  simp only [List.length_append, List.length_map, List.length_range] at htot
  have ha := allocate_spec (sortIds ids)
    (purge (sortIds ids) s.lookup s.unused).1
    (purge (sortIds ids) s.lookup s.unused).1
    (purge (sortIds ids) s.lookup s.unused).2 hs hk1 hk1 (fun _ _ => Iff.rfl)
    (fun k hk => (hmem k).2 (hkeys k hk)) (by omega)
  have hset : setObjects s ids = ({ s with
      lookup := (allocate (sortIds ids)
        (purge (sortIds ids) s.lookup s.unused).1
        (purge (sortIds ids) s.lookup s.unused).1
        (purge (sortIds ids) s.lookup s.unused).2).1.1
      unused := (allocate (sortIds ids)
        (purge (sortIds ids) s.lookup s.unused).1
        (purge (sortIds ids) s.lookup s.unused).1
        (purge (sortIds ids) s.lookup s.unused).2).1.2 },
      (allocate (sortIds ids)
        (purge (sortIds ids) s.lookup s.unused).1
        (purge (sortIds ids) s.lookup s.unused).1
        (purge (sortIds ids) s.lookup s.unused).2).2) := by
    unfold setObjects
    rw [if_neg (by omega)]
  rw [hset]
  refine ⟨ha.ok, ⟨ha.keyed, ha.perm.trans (hp2.trans h.perm)⟩, rfl, ?_, ?_⟩
  · intro k
    rw [ha.keys k, hmem k]
    constructor
    · rintro (h | h)
      · exact hkeys k h
      · exact h
    · exact Or.inr
  · intro e he hei
    apply ha.keep
    rw [hp1]
    exact List.mem_filter.2 ⟨he, by simpa using (hmem _).2 hei⟩

theorem inv_init (n : Nat) : Inv (State.init n) := ⟨by simp [State.init, Keyed], by simp [State.init]⟩

theorem inv_step (s : State) (ids : List Nat) (h : Inv s) (hn : ids.Nodup) : Inv (setObjects s ids).1 := by
  by_cases hl : ids.length ≤ s.maxChannels
  · exact (setObjects_spec s h ids hn hl).2.1
  · unfold setObjects
    rw [if_pos (by omega)]; exact h

theorem channels_nodup (s : State) (h : Inv s) : (s.lookup.map Prod.snd).Nodup := by
  have := h.perm.nodup_iff.2 List.nodup_range
  exact (List.nodup_append.1 this).1

theorem keys_nodup (s : State) (h : Inv s) : (s.lookup.map Prod.fst).Nodup := by
  have : (s.lookup.map Prod.fst).Pairwise (· < ·) := List.pairwise_map.2 h.keyed
  exact this.imp (fun h => Nat.ne_of_lt h)

theorem channel_lt (s : State) (h : Inv s) (e : Nat × Nat) (he : e ∈ s.lookup) : e.2 < s.maxChannels := by
  have : e.2 ∈ List.range s.maxChannels := h.perm.mem_iff.1 (List.mem_append_left _ (List.mem_map.2 ⟨e, he, rfl⟩))
  exact List.mem_range.1 this

/-- `getObjectForChannel` in terms of the entries. -/
theorem getObject_of_mem (s : State) (h : Inv s) (e : Nat × Nat) (he : e ∈ s.lookup) :
    getObjectForChannel s e.2 = e.1 := by
  unfold getObjectForChannel
  have hnd := channels_nodup s h
  split
  · rename_i x hx
    have h1 := List.find?_some hx
    have h2 := List.mem_of_find?_eq_some hx
    simp only [beq_iff_eq] at h1
    have := List.inj_on_of_nodup_map hnd h2 he h1
    rw [this]
  · rename_i hx
    have := List.find?_eq_none.1 hx e he
    simp at this

theorem getObject_cases (s : State) (ch : Nat) :
    (∃ e ∈ s.lookup, e.2 = ch ∧ getObjectForChannel s ch = e.1) ∨
      (getObjectForChannel s ch = cInvalidObjectId ∧ ∀ e ∈ s.lookup, e.2 ≠ ch) := by
  unfold getObjectForChannel
  split
  · rename_i x hx
    have h1 := List.find?_some hx
    simp only [beq_iff_eq] at h1
    exact .inl ⟨x, List.mem_of_find?_eq_some hx, h1, rfl⟩
  · rename_i hx
    refine .inr ⟨rfl, fun e he hch => ?_⟩
    have := List.find?_eq_none.1 hx e he
    simp [hch] at this

end Visr.Allocator
