import Verif.Routing.Model
import Mathlib.Tactic.Common
import Mathlib.Data.List.Nodup
import Mathlib.Data.List.Pairwise

/-! # Lemmas on routing lists -/

namespace Visr.Routing

variable {α : Type u} {κ : Type v} [DecidableEq κ]

/-- The comparison function orders by the key. -/
structure KeyOrder (lt : α → α → Bool) (key : α → κ) : Prop where
  eqv : ∀ a b, equiv lt a b = true ↔ key a = key b
  trans : ∀ a b c, lt a b = true → lt b c = true → lt a c = true
  cong : ∀ a b c, key a = key b → lt a c = lt b c ∧ lt c a = lt c b

/-- The entry with a given key. -/
def entryAt (key : α → κ) (l : List α) (k : κ) : Option α := l.find? (fun e => decide (key e = k))

/-- The contents are strictly increasing. -/
def Sorted (lt : α → α → Bool) (l : List α) : Prop := l.Pairwise (fun a b => lt a b = true)

variable {lt : α → α → Bool} {key : α → κ}

omit [DecidableEq κ] in
theorem KeyOrder.irrefl (h : KeyOrder lt key) (a : α) : lt a a = false := by
  have := (h.eqv a a).mpr rfl
  unfold equiv at this
  simpa using this

omit [DecidableEq κ] in
theorem KeyOrder.ne (h : KeyOrder lt key) {a b : α} (hl : lt a b = true) : key a ≠ key b := by
  intro e
  have := (h.eqv a b).mpr e
  unfold equiv at this
  rw [hl] at this
  simp at this

theorem entryAt_cons (y : α) (ys : List α) (k : κ) :
    entryAt key (y :: ys) k = if key y = k then some y else entryAt key ys k := by
  unfold entryAt
  by_cases h : key y = k <;> simp [h]

theorem entryAt_mem {l : List α} {k : κ} {e : α} (h : entryAt key l k = some e) : e ∈ l ∧ key e = k := by
  refine ⟨List.mem_of_find?_eq_some h, ?_⟩
  simpa using List.find?_some h

theorem entryAt_none {l : List α} {k : κ} : entryAt key l k = none ↔ ∀ e ∈ l, key e ≠ k := by
  unfold entryAt
  simp

theorem find_eq_entryAt (h : KeyOrder lt key) (l : List α) (x : α) :
    find lt l x = entryAt key l (key x) := by
  unfold find entryAt
  congr 1
  funext e
  by_cases he : key e = key x
  · simp [he, (h.eqv e x).mpr he]
  · have : equiv lt e x = false := by
      by_contra hc
      exact he ((h.eqv e x).mp (by simpa using hc))
    simp [he, this]

omit [DecidableEq κ] in
theorem Sorted.keys_nodup (h : KeyOrder lt key) {l : List α} (hs : Sorted lt l) :
    (l.map key).Nodup := by
  unfold List.Nodup
  rw [List.pairwise_map]
  exact List.Pairwise.imp (fun hl => h.ne hl) hs

theorem entryAt_of_mem (h : KeyOrder lt key) {l : List α} (hs : Sorted lt l) {e : α} (he : e ∈ l) :
    entryAt key l (key e) = some e := by
  cases hf : entryAt key l (key e) with
  | none => exact absurd rfl (entryAt_none.mp hf e he)
  | some d =>
    have := entryAt_mem hf
    rw [List.inj_on_of_nodup_map (hs.keys_nodup h) this.1 he this.2]

theorem insert_flag (h : KeyOrder lt key) {l : List α} (hs : Sorted lt l) (x : α) :
    (insert lt l x).2 = (entryAt key l (key x)).isNone := by
  induction l with
  | nil => rfl
  | cons y ys ih =>
    have hs' := List.pairwise_cons.mp hs
    rw [entryAt_cons]
    unfold insert
    by_cases h1 : lt x y = true
    · rw [if_pos h1, if_neg (Ne.symm (h.ne h1))]
      have : entryAt key ys (key x) = none := by
        rw [entryAt_none]
        intro e he
        exact Ne.symm (h.ne (h.trans x y e h1 (hs'.1 e he)))
      rw [this]; rfl
    · rw [if_neg h1]
      by_cases h2 : lt y x = true
      · rw [if_pos h2, if_neg (h.ne h2)]
        exact ih hs'.2
      · rw [if_neg h2, if_pos]
        · rfl
        · apply (h.eqv y x).mp
          unfold equiv
          simp [h1, h2]

theorem insert_entryAt (h : KeyOrder lt key) {l : List α} (hs : Sorted lt l) (x : α)
    (hn : entryAt key l (key x) = none) (k : κ) :
    entryAt key (insert lt l x).1 k = if key x = k then some x else entryAt key l k := by
  induction l with
  | nil => simp [insert, entryAt_cons]
  | cons y ys ih =>
    have hs' := List.pairwise_cons.mp hs
    rw [entryAt_cons] at hn
    have hyx : key y ≠ key x := by
      intro e; rw [if_pos e] at hn; cases hn
    rw [if_neg hyx] at hn
    unfold insert
    by_cases h1 : lt x y = true
    · rw [if_pos h1, entryAt_cons]
    · rw [if_neg h1]
      by_cases h2 : lt y x = true
      · rw [if_pos h2, entryAt_cons, entryAt_cons, ih hs'.2 hn]
        by_cases hk : key x = k
        · rw [if_pos hk, if_pos hk, if_neg (by rw [← hk]; exact hyx)]
        · rw [if_neg hk, if_neg hk]
      · exfalso
        apply hyx
        apply (h.eqv y x).mp
        unfold equiv
        simp [h1, h2]

omit [DecidableEq κ] in
theorem insert_sorted (h : KeyOrder lt key) {l : List α} (hs : Sorted lt l) (x : α) :
    Sorted lt (insert lt l x).1 ∧ ∀ e ∈ (insert lt l x).1, e = x ∨ e ∈ l := by
  induction l with
  | nil => simp [insert, Sorted]
  | cons y ys ih =>
    have hs' := List.pairwise_cons.mp hs
    unfold insert
    by_cases h1 : lt x y = true
    · rw [if_pos h1]
      refine ⟨List.pairwise_cons.mpr ⟨?_, hs⟩, ?_⟩
      · intro e he
        rcases List.mem_cons.mp he with rfl | he
        · exact h1
        · exact h.trans _ _ _ h1 (hs'.1 e he)
      · intro e he; simpa using he
    · rw [if_neg h1]
      by_cases h2 : lt y x = true
      · rw [if_pos h2]
        obtain ⟨i1, i2⟩ := ih hs'.2
        refine ⟨List.pairwise_cons.mpr ⟨?_, i1⟩, ?_⟩
        · intro e he
          rcases i2 e he with rfl | he
          · exact h2
          · exact hs'.1 e he
        · intro e he
          rcases List.mem_cons.mp he with rfl | he
          · simp
          · rcases i2 e he with rfl | he <;> simp_all
      · rw [if_neg h2]
        exact ⟨hs, fun e he => .inr he⟩

theorem erase_sorted {l : List α} (hs : Sorted lt l) (x : α) : Sorted lt (erase lt l x) :=
  List.Pairwise.sublist List.eraseP_sublist hs

theorem erase_entryAt (h : KeyOrder lt key) {l : List α} (hs : Sorted lt l) (x : α) (k : κ) :
    entryAt key (erase lt l x) k = if key x = k then none else entryAt key l k := by
  unfold erase
  induction l with
  | nil => simp [entryAt]
  | cons y ys ih =>
    have hs' := List.pairwise_cons.mp hs
    by_cases hyx : key y = key x
    · rw [List.eraseP_cons_of_pos (p := fun e => equiv lt e x) ((h.eqv y x).mpr hyx), entryAt_cons]
      by_cases hk : key x = k
      · rw [if_pos hk, entryAt_none]
        intro e he
        rw [← hk, ← hyx]
        exact Ne.symm (h.ne (hs'.1 e he))
      · rw [if_neg hk, if_neg (by rw [hyx]; exact hk)]
    · rw [List.eraseP_cons_of_neg (p := fun e => equiv lt e x) (fun hc => hyx ((h.eqv y x).mp hc)), entryAt_cons, entryAt_cons,
        ih hs'.2]
      by_cases hk : key x = k
      · rw [if_pos hk, if_pos hk, if_neg (by rw [← hk]; exact hyx)]
      · rw [if_neg hk, if_neg hk]

theorem erase_length (h : KeyOrder lt key) {l : List α} {x d : α}
    (hd : entryAt key l (key x) = some d) : (erase lt l x).length + 1 = l.length := by
  unfold erase
  have := entryAt_mem hd
  have := List.length_eraseP_of_mem (p := fun e => equiv lt e x) this.1 ((h.eqv d x).mpr this.2)
  have h2 : 0 < l.length := List.length_pos_of_mem (entryAt_mem hd).1
  omega

theorem insert_length (l : List α) (x : α) :
    (insert lt l x).1.length = l.length + (if (insert lt l x).2 then 1 else 0) := by
  induction l with
  | nil => rfl
  | cons y ys ih =>
    unfold insert
    split
    · simp
    · split
      · simp only [List.length_cons, ih]; omega
      · simp

theorem addRouting_spec (h : KeyOrder lt key) {l : List α} (hs : Sorted lt l) (e : α) :
    ∃ l', addRouting lt l e = .ok l' ∧ Sorted lt l' ∧
      (∀ k, entryAt key l' k = if key e = k then some e else entryAt key l k) ∧
      l'.length = l.length + (if (entryAt key l (key e)).isSome then 0 else 1) := by
  unfold addRouting
  rw [find_eq_entryAt h]
  cases hf : entryAt key l (key e) with
  | none =>
    have hfl : (insert lt l e).2 = true := by rw [insert_flag h hs, hf]; rfl
    simp only [hfl, if_true]
    refine ⟨_, rfl, (insert_sorted h hs e).1, insert_entryAt h hs e hf, ?_⟩
    rw [insert_length, hfl]; rfl
  | some d =>
    have hs2 := erase_sorted hs e
    have hn : entryAt key (erase lt l e) (key e) = none := by
      rw [erase_entryAt h hs, if_pos rfl]
    have hfl : (insert lt (erase lt l e) e).2 = true := by rw [insert_flag h hs2, hn]; rfl
    simp only [hfl, if_true]
    refine ⟨_, rfl, (insert_sorted h hs2 e).1, ?_, ?_⟩
    · intro k
      rw [insert_entryAt h hs2 e hn, erase_entryAt h hs]
      by_cases hk : key e = k <;> simp [hk]
    · rw [insert_length, hfl]
      have := erase_length h hf
      simp only [if_true, Option.isSome_some, Nat.add_zero]
      exact this

theorem removeRouting_spec (h : KeyOrder lt key) {l : List α} (hs : Sorted lt l) (e : α) :
    Sorted lt (removeRouting lt l e).1 ∧
    (∀ k, entryAt key (removeRouting lt l e).1 k = if key e = k then none else entryAt key l k) ∧
    (removeRouting lt l e).2 = (entryAt key l (key e)).isSome ∧
    (removeRouting lt l e).1.length + (if (removeRouting lt l e).2 then 1 else 0) = l.length := by
  unfold removeRouting
  rw [find_eq_entryAt h]
  cases hf : entryAt key l (key e) with
  | none =>
    refine ⟨hs, ?_, rfl, rfl⟩
    intro k
    by_cases hk : key e = k
    · rw [if_pos hk, ← hk, hf]
    · rw [if_neg hk]
  | some d => exact ⟨erase_sorted hs e, erase_entryAt h hs e, rfl, erase_length h hf⟩

/-- Two sorted lists with the same entries are equal. -/
theorem sorted_ext (h : KeyOrder lt key) {l l' : List α} (hs : Sorted lt l) (hs' : Sorted lt l')
    (he : ∀ k, entryAt key l k = entryAt key l' k) : l = l' := by
  have hp : l.Perm l' := by
    rw [List.perm_ext_iff_of_nodup (hs.keys_nodup h).of_map (hs'.keys_nodup h).of_map]
    intro a
    constructor
    · intro ha
      have := entryAt_of_mem h hs ha
      rw [he] at this
      exact (entryAt_mem this).1
    · intro ha
      have := entryAt_of_mem h hs' ha
      rw [← he] at this
      exact (entryAt_mem this).1
  refine hp.eq_of_pairwise (fun a b _ _ h1 h2 => ?_) hs hs'
  have := h.trans _ _ _ h1 h2
  rw [h.irrefl] at this
  cases this

theorem ofList_spec (h : KeyOrder lt key) (es : List α) :
    ((es.map key).Nodup → ∃ l, ofList lt es = .ok l ∧ Sorted lt l ∧ l.Perm es) ∧
    (¬ (es.map key).Nodup → ofList lt es = .throw .invalidArgument) := by
  have gen : ∀ (es l : List α), Sorted lt l →
      (((l ++ es).map key).Nodup →
        ∃ l', insertAll lt es l = .ok l' ∧ Sorted lt l' ∧ l'.Perm (l ++ es)) ∧
      (¬ ((l ++ es).map key).Nodup → insertAll lt es l = .throw .invalidArgument) := by
    intro es
    induction es with
    | nil =>
      intro l hs
      simp only [List.append_nil, insertAll]
      exact ⟨fun _ => ⟨l, rfl, hs, List.Perm.refl _⟩, fun hc => absurd (hs.keys_nodup h) hc⟩
    | cons e es ih =>
      intro l hs
      simp only [insertAll]
      have hfl := insert_flag h hs e
      cases hn : entryAt key l (key e) with
      | some d =>
        rw [hn] at hfl
        simp only [Option.isNone_some] at hfl
        rw [hfl]
        simp only [Bool.false_eq_true, if_false]
        have hdup : ¬ ((l ++ e :: es).map key).Nodup := by
          intro hc
          rw [List.map_append, List.nodup_append] at hc
          have hd := entryAt_mem hn
          exact hc.2.2 (key d) (List.mem_map_of_mem hd.1) (key e) (by simp) hd.2
        exact ⟨fun hc => absurd hc hdup, fun _ => trivial⟩
      | none =>
        rw [hn] at hfl
        simp only [Option.isNone_none] at hfl
        rw [hfl]
        simp only [if_true]
        obtain ⟨i1, i2⟩ := insert_sorted h hs e
        have hperm : ((insert lt l e).1).Perm (l ++ [e]) := by
          have hent := insert_entryAt h hs e hn
          rw [List.perm_ext_iff_of_nodup (i1.keys_nodup h).of_map]
          · intro a
            constructor
            · intro ha
              rcases i2 a ha with rfl | ha <;> simp_all
            · intro ha
              rcases List.mem_append.mp ha with ha | ha
              · have hne : key e ≠ key a := fun hc => entryAt_none.mp hn a ha hc.symm
                have := hent (key a)
                rw [if_neg hne, entryAt_of_mem h hs ha] at this
                exact (entryAt_mem this).1
              · rw [List.mem_singleton] at ha
                subst ha
                have := hent (key a)
                rw [if_pos rfl] at this
                exact (entryAt_mem this).1
          · rw [List.nodup_append]
            refine ⟨(hs.keys_nodup h).of_map, by simp, ?_⟩
            intro a ha b hb
            rw [List.mem_singleton] at hb
            subst hb
            intro hab
            exact entryAt_none.mp hn a ha (by rw [hab])
        obtain ⟨g1, g2⟩ := ih (insert lt l e).1 i1
        have hperm2 : ((insert lt l e).1 ++ es).Perm (l ++ e :: es) := by
          have := hperm.append_right es
          simpa using this
        have hnd : (((insert lt l e).1 ++ es).map key).Nodup ↔ ((l ++ e :: es).map key).Nodup :=
          (hperm2.map key).nodup_iff
        constructor
        · intro hc
          obtain ⟨l', e1, e2, e3⟩ := g1 (hnd.mpr hc)
          exact ⟨l', e1, e2, e3.trans hperm2⟩
        · intro hc
          exact g2 (fun hc' => hc (hnd.mp hc'))
  have := gen es [] List.Pairwise.nil
  simpa only [ofList, List.nil_append] using this

/-! ## The two kinds of routing -/

theorem filterOrder {G : Type} :
    KeyOrder (filterLt (G := G)) (fun e => (e.inputIndex, e.outputIndex)) := by
  refine ⟨?_, ?_, ?_⟩
  · intro a b
    unfold equiv filterLt
    simp only [Bool.and_eq_true, Bool.not_eq_true', Prod.mk.injEq]
    split_ifs <;> simp <;> omega
  · intro a b c
    unfold filterLt
    split_ifs <;> simp <;> omega
  · intro a b c h
    simp only [Prod.mk.injEq] at h
    unfold filterLt
    rw [h.1, h.2]
    exact ⟨rfl, rfl⟩

theorem gainOrder {G : Type} : KeyOrder (gainLt (G := G)) (fun e => e.entryIndex) := by
  refine ⟨?_, ?_, ?_⟩
  · intro a b
    unfold equiv gainLt
    simp
    omega
  · intro a b c
    unfold gainLt
    simp
    omega
  · intro a b c h
    unfold gainLt
    rw [h]
    exact ⟨rfl, rfl⟩

end Visr.Routing
