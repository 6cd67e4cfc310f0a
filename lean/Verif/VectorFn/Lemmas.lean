import Verif.VectorFn.Spec
import Mathlib.Tactic.Ring

namespace Visr.VectorFn

variable [Field K]

theorem read_cell (h : Heap K) (p : Ptr) (i : Nat) (hb : p.idx + i < (h p.obj).length) : read h p i = .ok (cell h p i) := by
  simp [read, cell, List.getElem?_eq_getElem hb, List.getD_eq_getElem?_getD]

theorem readAll_cells (h : Heap K) (i : Nat) : ∀ ps : List Ptr, (∀ p ∈ ps, p.idx + i < (h p.obj).length) →
    readAll h i ps = .ok (ps.map (cell h · i))
  | [], _ => rfl
  | p :: ps, hb => by
    rw [readAll, read_cell h p i (hb p (by simp)), Outcome.ok_bind, readAll_cells h i ps (fun q hq => hb q (by simp [hq]))]
    rfl

/-- The memory after storing one element. -/
def stored (h : Heap K) (p : Ptr) (i : Nat) (v : K) : Heap K := fun o => if o = p.obj then (h o).set (p.idx + i) v else h o

theorem write_stored (h : Heap K) (p : Ptr) (i : Nat) (v : K) (hb : p.idx + i < (h p.obj).length) :
    write h p i v = .ok (stored h p i v) := by
  rw [write, if_pos hb]; rfl

theorem stored_get (h : Heap K) (p : Ptr) (i : Nat) (v : K) (hb : p.idx + i < (h p.obj).length) (o x : Nat) :
    (stored h p i v o)[x]? = if o = p.obj ∧ x = p.idx + i then some v else (h o)[x]? := by
  unfold stored
  by_cases ho : o = p.obj
  · subst ho
    by_cases hx : x = p.idx + i
    · subst hx; simp [hb]
    · simp [hx, List.getElem?_set, Ne.symm hx]
  · simp [ho]

theorem stored_length (h : Heap K) (p : Ptr) (i : Nat) (v : K) (o : Nat) : (stored h p i v o).length = (h o).length := by
  unfold stored; split <;> simp

theorem cell_eq (h : Heap K) (p : Ptr) (i : Nat) : cell h p i = ((h p.obj)[p.idx + i]?).getD 0 := by
  simp [cell, List.getD_eq_getElem?_getD]

/-- No element that is still to be read is overwritten. -/
def Safe (ins : List Ptr) (out : Ptr) (i n : Nat) : Prop :=
  ∀ p ∈ ins, p.obj = out.obj → ∀ j k, i ≤ k → k < j → j < i + n → p.idx + j ≠ out.idx + k

theorem run_spec (f : Nat → List K → K) (ins : List Ptr) (out : Ptr) : ∀ (n i : Nat) (h : Heap K),
    (∀ p ∈ ins, p.idx + (i + n) ≤ (h p.obj).length) → out.idx + (i + n) ≤ (h out.obj).length → Safe ins out i n →
    ∃ h', run f ins out n i h = .ok h' ∧ ∀ o x, (h' o)[x]? =
      if o = out.obj ∧ out.idx + i ≤ x ∧ x < out.idx + i + n then
        some (f (x - out.idx) (ins.map (cell h · (x - out.idx)))) else (h o)[x]?
  | 0, i, h, _, _, _ => ⟨h, rfl, fun o x => by rw [if_neg (by omega)]⟩
  | n + 1, i, h, hin, hout, hs => by
    have hb : ∀ p ∈ ins, p.idx + i < (h p.obj).length := fun p hp => by have := hin p hp; omega
    have ho : out.idx + i < (h out.obj).length := by omega
    obtain ⟨h', e, hr⟩ := run_spec f ins out n (i + 1) (stored h out i (f i (ins.map (cell h · i))))
      (fun p hp => by rw [stored_length]; have := hin p hp; omega) (by rw [stored_length]; omega)
      (fun p hp he j k h1 h2 h3 => hs p hp he j k (by omega) h2 (by omega))
    refine ⟨h', ?_, ?_⟩
    · rw [run, readAll_cells h i ins hb, Outcome.ok_bind, write_stored h out i _ ho, Outcome.ok_bind, e]
    · intro o x
      rw [hr o x]
      by_cases hx : o = out.obj ∧ out.idx + (i + 1) ≤ x ∧ x < out.idx + (i + 1) + n
      · rw [if_pos hx, if_pos ⟨hx.1, by omega, by omega⟩]
        congr 2
        apply List.map_congr_left
        intro p hp
        rw [cell_eq, cell_eq, stored_get _ _ _ _ ho]
        rw [if_neg]
        rintro ⟨h1, h2⟩
        exact hs p hp h1 (x - out.idx) i (by omega) (by omega) (by omega) h2
      · rw [if_neg hx, stored_get _ _ _ _ ho]
        by_cases hy : o = out.obj ∧ x = out.idx + i
        · rw [if_pos hy, if_pos ⟨hy.1, by omega, by omega⟩]
          have : x - out.idx = i := by omega
          rw [this]
        · rw [if_neg hy, if_neg]
          rintro ⟨h1, h2, h3⟩
          by_cases h4 : x = out.idx + i
          · exact hy ⟨h1, h4⟩
          · exact hx ⟨h1, by omega, by omega⟩

theorem safe_of (ins : List Ptr) (out : Ptr) (n : Nat) (hs : ∀ p ∈ ins, SameOrDisjoint n p out) : Safe ins out 0 n := by
  intro p hp he j k h1 h2 h3
  rcases hs p hp with h | h | h | h
  · exact absurd he h
  · omega
  · omega
  · omega

/-- The loop computes its function for all elements. -/
theorem run_written (f : Nat → List K → K) (ins : List Ptr) (out : Ptr) (n : Nat) (h : Heap K) (g : Nat → K)
    (hin : ∀ p ∈ ins, InBounds h p n) (hout : InBounds h out n) (hs : ∀ p ∈ ins, SameOrDisjoint n p out)
    (hg : ∀ i, i < n → f i (ins.map (cell h · i)) = g i) :
    ∃ h', run f ins out n 0 h = .ok h' ∧ Written h h' out n g := by
  obtain ⟨h', e, hr⟩ := run_spec f ins out n 0 h (by simpa [InBounds] using hin) (by simpa [InBounds] using hout)
    (safe_of ins out n hs)
  refine ⟨h', e, fun o x => ?_⟩
  rw [hr o x]
  simp only [Nat.add_zero]
  by_cases hx : o = out.obj ∧ out.idx ≤ x ∧ x < out.idx + n
  · rw [if_pos hx, if_pos hx, hg _ (by omega)]
  · rw [if_neg hx, if_neg hx]

theorem checked_ok (L : Layout) (al : BitVec 64) (ptrs : List Ptr) (h : Heap K) (body : Outcome (Heap K)) (h' : Heap K)
    (ha : ∀ p ∈ ptrs, aligned L al p = true) (hb : body = .ok h') : checked L al ptrs h body = .ok (.noError, h') := by
  unfold checked
  rw [if_pos (List.all_eq_true.2 ha), hb, Outcome.ok_bind]

theorem checked_misaligned (L : Layout) (al : BitVec 64) (ptrs : List Ptr) (h : Heap K) (body : Outcome (Heap K))
    (p : Ptr) (hp : p ∈ ptrs) (ha : aligned L al p = false) : checked L al ptrs h body = .ok (.alignmentError, h) := by
  unfold checked
  rw [if_neg]
  intro hc
  have := List.all_eq_true.1 hc p hp
  rw [ha] at this; cases this

theorem sameOrDisjoint_self (n : Nat) (p : Ptr) : SameOrDisjoint n p p := Or.inr (Or.inl rfl)

/-- A checked loop. -/
theorem checked_run (L : Layout) (al : BitVec 64) (ptrs : List Ptr) (f : Nat → List K → K) (ins : List Ptr) (out : Ptr) (n : Nat)
    (h : Heap K) (g : Nat → K) (ha : ∀ p ∈ ptrs, aligned L al p = true)
    (hin : ∀ p ∈ ins, InBounds h p n) (hout : InBounds h out n) (hs : ∀ p ∈ ins, SameOrDisjoint n p out)
    (hg : ∀ i, i < n → f i (ins.map (cell h · i)) = g i) :
    ∃ h', checked L al ptrs h (run f ins out n 0 h) = .ok (.noError, h') ∧ Written h h' out n g := by
  obtain ⟨h', e, hw⟩ := run_written f ins out n h g hin hout hs hg
  exact ⟨h', checked_ok L al ptrs h _ h' ha e, hw⟩

theorem readAll_ub (h : Heap K) (i : Nat) (p : Ptr) (hp : (h p.obj).length ≤ p.idx + i) : ∀ ps : List Ptr, p ∈ ps →
    readAll h i ps = .ub
  | q :: ps, hm => by
    rw [readAll]
    by_cases hq : q.idx + i < (h q.obj).length
    · rw [read_cell h q i hq, Outcome.ok_bind, readAll_ub h i p hp ps]
      · rfl
      · rcases List.mem_cons.1 hm with rfl | hm
        · omega
        · exact hm
    · have : read h q i = .ub := by simp [read, List.getElem?_eq_none (Nat.le_of_not_lt hq)]
      rw [this]; rfl

/-- Whatever the loop is, the access behind the end of an array is reached. -/
theorem run_ub (f : Nat → List K → K) (ins : List Ptr) (out p : Ptr) (hp : p ∈ out :: ins) : ∀ (n i : Nat) (h : Heap K),
    0 < n → (h p.obj).length < p.idx + i + n → run f ins out n i h = .ub
  | n + 1, i, h, _, hlt => by
    rw [run]
    rcases hr : readAll h i ins with vs | e | _
    · rw [Outcome.ok_bind]
      by_cases hw : out.idx + i < (h out.obj).length
      · rw [write_stored h out i _ hw, Outcome.ok_bind]
        by_cases hn : n = 0
        · subst hn
          rcases List.mem_cons.1 hp with rfl | hm
          · omega
          · rw [readAll_ub h i p (by omega) ins hm] at hr; cases hr
        · exact run_ub f ins out p hp n (i + 1) _ (by omega) (by rw [stored_length]; omega)
      · rw [write, if_neg hw]; rfl
    · exfalso
      clear hp hlt
      induction ins generalizing e with
      | nil => cases hr
      | cons q qs ih =>
        rw [readAll] at hr
        unfold read at hr
        cases hx : (h q.obj)[q.idx + i]? with
        | none => rw [hx] at hr; cases hr
        | some v =>
          rw [hx] at hr
          simp only [Outcome.ok_bind] at hr
          cases hy : readAll h i qs with
          | ok vs => rw [hy] at hr; cases hr
          | throw e' => exact ih e' hy
          | ub => rw [hy] at hr; cases hr
    · rfl

theorem rampValue_eq (n : Nat) (a b : K) (si ei : Bool) (i : Nat) (hn : n ≠ 0) : rampValue n a b si ei i = rampAt n i a b si ei := by
  unfold rampValue rampAt
  by_cases h1 : n = 1
  · simp [h1]
  · rw [if_neg h1, if_neg h1]
    cases si <;> cases ei <;> simp

end Visr.VectorFn
