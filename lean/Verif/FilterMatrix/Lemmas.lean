import Verif.FilterMatrix.Spec
import Mathlib.Data.List.Forall2
import Mathlib.Data.List.Sort
import Mathlib.Tactic.Push

/-!
# Helper facts for the filter matrix
-/

namespace Visr.FilterMatrix

/-! ### Names -/

theorem split_nocomma (s : List Char) (h : ',' ∉ s) : split s = [s] := by
  induction s with
  | nil => rfl
  | cons c s ih =>
    simp only [List.mem_cons, not_or] at h
    rw [split, if_neg (Ne.symm h.1), ih h.2]

theorem split_comma (s t : List Char) (h : ',' ∉ s) : split (s ++ ',' :: t) = s :: split t := by
  induction s with
  | nil => simp [split]
  | cons c s ih =>
    simp only [List.mem_cons, not_or] at h
    rw [List.cons_append, split, if_neg (Ne.symm h.1), ih h.2]

theorem dropWhile_pad (a s : List Char) (ha : ∀ c ∈ a, trimmed c = true) (hs : ∀ c ∈ s.head?, trimmed c = false) :
    (a ++ s).dropWhile trimmed = s := by
  induction a with
  | nil =>
    cases s with
    | nil => rfl
    | cons c s =>
      have := hs c (by simp)
      simp [List.dropWhile, this]
  | cons c a ih =>
    have h1 := ha c (by simp)
    simp only [List.cons_append, List.dropWhile, h1]
    exact ih fun c hc => ha c (by simp [hc])

theorem trim_written (n s : List Char) (h : Written n s) : trim s = n := by
  obtain ⟨a, b, rfl, ha, hb⟩ := h.pads
  have key : ∀ c : Char, (c = '"' ∨ c = ' ') → trimmed c = true := by
    intro c hc; simpa [trimmed] using hc
  have key' : ∀ c : Char, (c ≠ '"' ∧ c ≠ ' ') → trimmed c = false := by
    intro c hc; simp [trimmed, hc.1, hc.2]
  unfold trim
  rw [List.append_assoc, dropWhile_pad a (n ++ b) (fun c hc => key c (ha c hc))]
  · rw [List.reverse_append, dropWhile_pad b.reverse n.reverse]
    · simp
    · intro c hc; exact key c (hb c (by simpa using hc))
    · intro c hc
      rw [List.head?_reverse] at hc
      exact key' c (h.last c hc)
  · intro c hc
    obtain ⟨d, t, rfl⟩ := List.exists_cons_of_ne_nil h.nonempty
    simp at hc; subst hc
    exact key' _ (h.first _ (by simp))

theorem written_nocomma (n s : List Char) (h : Written n s) : ',' ∉ s := by
  obtain ⟨a, b, rfl, ha, hb⟩ := h.pads
  intro hc
  simp only [List.mem_append] at hc
  rcases hc with (hc | hc) | hc
  · have := ha _ hc; revert this; decide
  · exact h.nocomma hc
  · have := hb _ hc; revert this; decide

theorem split_list (ns : List (List Char)) (s : List Char) (h : ListOf ns s) : (split s).map trim = ns := by
  induction h with
  | one n s hw => rw [split_nocomma _ (written_nocomma n s hw)]; simp [trim_written n s hw]
  | cons n s ns t hw _ ih => rw [split_comma _ _ (written_nocomma n s hw)]; simp [trim_written n s hw, ih]

theorem listOf_ne (ns : List (List Char)) (s : List Char) (h : ListOf ns s) : s ≠ [] ∧ ns ≠ [] := by
  cases h with
  | one n s hw =>
    obtain ⟨a, b, rfl, _, _⟩ := hw.pads
    have := hw.nonempty
    simp [this]
  | cons n s ns t hw _ => simp

theorem names_of_list (ns : List (List Char)) (s : List Char) (h : ListOf ns s) : stringListToVec s = ns := by
  rw [stringListToVec, if_neg (listOf_ne ns s h).1, split_list ns s h]

/-! ### First run -/

theorem gather_consecutive {K : Type} (disk : Disk K) (ns : List (List Char)) (as : List (Impulses K)) (h : Loaded disk ns as) :
    ∀ i e, gather disk [] i e ns = .ok (consecutive e as) := by
  induction h with
  | nil => intros; rfl
  | cons hn _ ih =>
    intro i e
    simp [gather, hn.1, consecutive, ih]

theorem gather_offsets {K : Type} (disk : Disk K) (ns : List (List Char)) (as : List (Impulses K))
    (h : Loaded disk ns as) : ∀ (pre os : List Nat) e, os.length = ns.length → (pre ++ os).length > 0 →
    gather disk (pre ++ os) pre.length e ns = .ok (os.zip as) := by
  induction h with
  | nil => intro pre os e h1 h2; cases os with
    | nil => rfl
    | cons o os => simp at h1
  | @cons n a ns as hn _ ih =>
    intro pre os e h1 h2
    cases os with
    | nil => simp at h1
    | cons o os =>
      have := ih (pre ++ [o]) os (o + a.rows.length) (by simpa using h1) (by simp; omega)
      simp only [List.append_assoc, List.singleton_append, List.length_append, List.length_cons, List.length_nil, Nat.zero_add] at this
      rw [gather, hn.1]
      simp only [if_pos h2]
      have hg : (pre ++ o :: os).getD pre.length 0 = o := by simp [List.getD]
      rw [hg, this]
      rfl

theorem gather_places {K : Type} (disk : Disk K) (offsets : List Nat) (ns : List (List Char)) (as : List (Impulses K))
    (h : Loaded disk ns as) (ho : offsets = [] ∨ offsets.length = ns.length) :
    gather disk offsets 0 0 ns = .ok (places offsets as) := by
  unfold places
  split
  · rename_i h0; subst h0; exact gather_consecutive disk ns as h 0 0
  · rename_i h0
    rcases ho with ho | ho
    · exact absurd ho h0
    · exact gather_offsets disk ns as h [] offsets 0 ho (by
        have := List.length_pos_iff.2 h0
        simpa using this)

theorem consecutive_start {K : Type} (as : List (Impulses K)) : ∀ e, ∀ x ∈ consecutive e as, e ≤ x.1 := by
  induction as with
  | nil => intro e x hx; simp [consecutive] at hx
  | cons a as ih =>
    intro e x hx
    simp only [consecutive, List.mem_cons] at hx
    rcases hx with rfl | hx
    · exact Nat.le_refl _
    · have := ih _ x hx; omega

theorem consecutive_ascending {K : Type} (as : List (Impulses K)) : ∀ e, Ascending (consecutive e as) := by
  induction as with
  | nil => intro e; exact List.Pairwise.nil
  | cons a as ih =>
    intro e
    refine List.Pairwise.cons ?_ (ih _)
    intro y hy
    exact consecutive_start as _ y hy

theorem consecutive_contents {K : Type} (as : List (Impulses K)) : ∀ e, (consecutive e as).map (·.2) = as := by
  induction as with
  | nil => intro e; rfl
  | cons a as ih => intro e; simp [consecutive, ih]

theorem places_contents {K : Type} (offsets : List Nat) (as : List (Impulses K)) (h : offsets = [] ∨ offsets.length = as.length) :
    (places offsets as).map (·.2) = as := by
  unfold places
  split
  · exact consecutive_contents as 0
  · rename_i h0
    rcases h with h | h
    · exact absurd h h0
    · have : (offsets.zip as).map Prod.snd = as := List.map_snd_zip (by omega)
      exact this

/-! ### Lengths and order -/

theorem longest_le {K : Type} (files : List (Nat × Impulses K)) : ∀ x ∈ files, x.2.length ≤ longest files := by
  induction files with
  | nil => intro x hx; simp at hx
  | cons y ys ih =>
    intro x hx
    simp only [List.mem_cons] at hx
    rw [longest]
    rcases hx with rfl | hx
    · omega
    · have := ih x hx; omega

theorem longest_mem {K : Type} (files : List (Nat × Impulses K)) (h : files ≠ []) : ∃ x ∈ files, x.2.length = longest files := by
  induction files with
  | nil => exact absurd rfl h
  | cons y ys ih =>
    rw [longest]
    by_cases h1 : longest ys ≤ y.2.length
    · exact ⟨y, by simp, by omega⟩
    · have hne : ys ≠ [] := by rintro rfl; simp [longest] at h1
      obtain ⟨x, hx, he⟩ := ih hne
      exact ⟨x, by simp [hx], by omega⟩

theorem order_identity (S : StdSort) (starts : List Nat) (h : starts.Pairwise (· < ·)) :
    S.order starts = List.range starts.length := by
  refine List.Perm.eq_of_pairwise (le := (· ≤ ·)) ?_ ?_ ?_ (S.perm starts)
  · intro a b _ _ h1 h2; omega
  · have hm : ∀ a ∈ S.order starts, a < starts.length := fun a ha => by
      have := (S.perm starts).mem_iff.1 ha; simpa using this
    refine (S.sorted starts).imp_of_mem ?_
    intro a b ha hb hab
    by_contra hlt
    have hlt' : b < a := by omega
    apply hab
    have h1 := hm a ha
    have h2 := hm b hb
    have := List.pairwise_iff_getElem.1 h b a h2 h1 hlt'
    simpa [List.getD, h1, h2] using this
  · exact (List.pairwise_lt_range (n := starts.length)).imp fun h => Nat.le_of_lt h

theorem checkAll_ok (starts ends ks : List Nat) (h : ∀ k ∈ ks, k ≠ 0 ∧ starts.getD (k - 1) 0 ≤ ends.getD k 0) :
    checkAll starts ends ks = .ok () := by
  induction ks with
  | nil => rfl
  | cons k ks ih =>
    have h1 := h k (by simp)
    have h2 := ih fun k' hk => h k' (by simp [hk])
    have h3 : checkOne starts ends k = .ok () := by
      rw [checkOne, if_neg h1.1, if_neg (by omega)]
    rw [checkAll, h3, h2]; rfl

theorem checkAll_zero (starts ends ks : List Nat) (h : 0 ∈ ks) : checkAll starts ends ks ≠ .ok () := by
  induction ks with
  | nil => simp at h
  | cons k ks ih =>
    rw [checkAll]
    simp only [List.mem_cons] at h
    unfold checkOne
    split
    · simp
    · split
      · simp
      · rcases h with rfl | h
        · omega
        · simpa using ih h

theorem ascending_check {K : Type} (S : StdSort) (files : List (Nat × Impulses K)) (h : files.Pairwise fun x y => x.1 < y.1) :
    checkAll (files.map (·.1)) (files.map endOf) (S.order (files.map (·.1))).tail = .ok () := by
  have hp : (files.map (·.1)).Pairwise (· < ·) := List.pairwise_map.2 h
  rw [order_identity S _ hp]
  apply checkAll_ok
  intro k hk
  have hk2 : k ≠ 0 ∧ k < files.length := by
    have hr : k ∈ (List.range files.length).tail := by simpa using hk
    cases hf : files.length with
    | zero => rw [hf] at hr; simp at hr
    | succ n =>
      rw [hf, List.range_succ_eq_map] at hr
      simp at hr
      omega
  refine ⟨hk2.1, ?_⟩
  have h1 : k - 1 < files.length := by omega
  have := List.pairwise_iff_getElem.1 h (k - 1) k h1 hk2.2 (by omega)
  simp [List.getD, h1, hk2.2, endOf]
  omega

theorem ascending_starts {K : Type} (files : List (Nat × Impulses K)) (hok : ∀ x ∈ files, x.2.Ok) (h : Ascending files) :
    files.Pairwise fun x y => x.1 < y.1 := by
  refine List.Pairwise.imp_of_mem ?_ h
  intro x y hx _ hxy
  have := (hok x hx).1
  omega

/-! ### Second run -/

theorem setRows_ok {K : Type} (rs : List (List K)) : ∀ (start : Nat) (m : List (List K)), start + rs.length ≤ m.length →
    ∃ m', setRows start rs m = .ok m' ∧ m'.length = m.length ∧
      (∀ q, ¬ (start ≤ q ∧ q < start + rs.length) → m'[q]? = m[q]?) ∧
      (∀ i r old, rs[i]? = some r → m[start + i]? = some old → m'[start + i]? = some (overlay r old)) := by
  induction rs with
  | nil => intro start m _; exact ⟨m, rfl, rfl, fun _ _ => rfl, by intro i r old h; simp at h⟩
  | cons r rs ih =>
    intro start m h
    simp only [List.length_cons] at h
    have hs : start < m.length := by omega
    obtain ⟨m', he, hl, hf, hp⟩ := ih (start + 1) (m.set start (overlay r m[start])) (by simp; omega)
    refine ⟨m', ?_, by simpa using hl, ?_, ?_⟩
    · rw [setRows, List.getElem?_eq_getElem hs]; exact he
    · intro q hq
      simp only [List.length_cons] at hq
      rw [hf q (by omega), List.getElem?_set_ne (by omega)]
    · intro i r' old hi ho
      cases i with
      | zero =>
        simp only [Nat.add_zero] at ho ⊢
        simp at hi; subst hi
        rw [hf start (by omega), List.getElem?_set_self hs]
        rw [List.getElem?_eq_getElem hs] at ho
        injection ho with ho; rw [ho]
      | succ i =>
        have := hp i r' old (by simpa using hi) (by
          rw [List.getElem?_set_ne (by omega)]
          rw [show start + 1 + i = start + (i + 1) by omega]; exact ho)
        rwa [show start + 1 + i = start + (i + 1) by omega] at this

theorem setFiles_ok {K : Type} (files : List (Nat × Impulses K)) : ∀ (m : List (List K)),
    (∀ x ∈ files, endOf x ≤ m.length) →
    ∃ m', setFiles files m = .ok m' ∧ m'.length = m.length ∧
      (∀ q, (∀ x ∈ files, ¬ (x.1 ≤ q ∧ q < x.1 + x.2.rows.length)) → m'[q]? = m[q]?) ∧
      (Ascending files → ∀ x ∈ files, ∀ i r old, x.2.rows[i]? = some r → m[x.1 + i]? = some old →
        m'[x.1 + i]? = some (overlay r old)) := by
  induction files with
  | nil => intro m _; exact ⟨m, rfl, rfl, fun _ _ => rfl, by intro _ x hx; simp at hx⟩
  | cons y ys ih =>
    intro m h
    obtain ⟨m1, he1, hl1, hf1, hp1⟩ := setRows_ok y.2.rows y.1 m (h y (by simp))
    obtain ⟨m2, he2, hl2, hf2, hp2⟩ := ih m1 (fun x hx => by rw [hl1]; exact h x (by simp [hx]))
    refine ⟨m2, ?_, by omega, ?_, ?_⟩
    · simp [setFiles, he1, he2]
    · intro q hq
      rw [hf2 q fun x hx => hq x (by simp [hx]), hf1 q (hq y (by simp))]
    · intro hd x hx i r old hi ho
      have hd' := List.pairwise_cons.1 hd
      have hil : ∀ z : Nat × Impulses K, z.2.rows[i]? = some r → i < z.2.rows.length := by
        intro z hz; exact (List.getElem?_eq_some_iff.1 hz).1
      simp only [List.mem_cons] at hx
      rcases hx with rfl | hx
      · have := hp1 i r old hi ho
        rw [hf2, this]
        intro z hz hc
        have := hd'.1 z hz
        have := hil x hi
        omega
      · apply hp2 hd'.2 x hx i r old hi
        rw [hf1, ho]
        intro hc
        have := hd'.1 x hx
        omega

theorem overlay_zeros {K : Type} [Zero K] (r : List K) (len : Nat) : overlay r (List.replicate len 0) = padded len r := by
  simp [overlay, padded]

theorem zeros_get {K : Type} [Zero K] (n len q : Nat) (h : q < n) : (zeros n len : List (List K))[q]? = some (List.replicate len 0) := by
  simp [zeros, h]

end Visr.FilterMatrix
