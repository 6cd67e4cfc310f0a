import Verif.ArrayConfig.Spec
import Mathlib.Data.List.Basic
import Mathlib.Data.List.Forall2
import Mathlib.Tactic.Cases
import Mathlib.Tactic.ByContra

/-!
# Lemmas: texts, attributes and single nodes
-/

namespace Visr.ArrayConfig
open Visr

variable {K : Type}

/-! ### Outcomes -/

theorem bind_ok {α β : Type} {x : Outcome α} {f : α → Outcome β} {r : β} :
    (x >>= f) = .ok r ↔ ∃ a, x = .ok a ∧ f a = .ok r := by
  cases x <;> simp

theorem bind_ub {α β : Type} {x : Outcome α} {f : α → Outcome β} :
    (x >>= f) = .ub ↔ x = .ub ∨ ∃ a, x = .ok a ∧ f a = .ub := by
  cases x <;> simp

theorem entry_get_ok {α : Type} {e : Entry α} {v : α} : e.get = .ok v ↔ e = .val v := by
  cases e <;> simp [Entry.get]

theorem entry_get_ub {α : Type} {e : Entry α} : e.get ≠ .ub := by
  cases e <;> simp [Entry.get]

theorem getText_ok {t : Option Id} {s : Id} : getText t = .ok s ↔ t = some s := by
  cases t <;> simp [getText]

theorem getText_ub {t : Option Id} : getText t ≠ .ub := by
  cases t <;> simp [getText]

/-! ### Loops -/

/-- The conditions under which the steps of a loop succeed. -/
def Chain {S Y : Type} (C : S → Y → Prop) (g : S → Y → S) : S → List Y → Prop
  | _, [] => True
  | s, y :: ys => C s y ∧ Chain C g (g s y) ys

theorem loop_ok {S X Y : Type} {f : S → X → Outcome S} {R : X → Y → Prop}
    {C : S → Y → Prop} {g : S → Y → S} {I : S → Prop} {P : X → Prop}
    (hf : ∀ s x r, I s → P x → (f s x = .ok r ↔ ∃ y, R x y ∧ C s y ∧ r = g s y))
    (hI : ∀ s x y, I s → P x → R x y → C s y → I (g s y)) :
    ∀ xs s r, I s → (∀ x ∈ xs, P x) →
      (xs.foldlM f s = .ok r ↔ ∃ ys, List.Forall₂ R xs ys ∧ Chain C g s ys ∧ r = ys.foldl g s)
  | [], s, r, _, _ => by
    simp only [List.foldlM_nil, Outcome.pure_eq, Outcome.ok.injEq, List.forall₂_nil_left_iff]
    constructor
    · rintro rfl; exact ⟨[], rfl, trivial, rfl⟩
    · rintro ⟨ys, rfl, _, h⟩; exact h.symm
  | x :: xs, s, r, hs, hP => by
    rw [List.foldlM_cons, bind_ok]
    constructor
    · rintro ⟨s', h1, h2⟩
      obtain ⟨y, hR, hC, rfl⟩ := (hf s x s' hs (hP x (by simp))).1 h1
      obtain ⟨ys, hRs, hCs, rfl⟩ := (loop_ok hf hI xs _ r
        (hI s x y hs (hP x (by simp)) hR hC) (fun z hz => hP z (by simp [hz]))).1 h2
      exact ⟨y :: ys, .cons hR hRs, ⟨hC, hCs⟩, rfl⟩
    · rintro ⟨ys, hRs, hCs, rfl⟩
      cases hRs with
      | cons hR hRs =>
        rename_i y ys
        refine ⟨g s y, (hf s x _ hs (hP x (by simp))).2 ⟨y, hR, hCs.1, rfl⟩, ?_⟩
        exact (loop_ok hf hI xs _ _ (hI s x y hs (hP x (by simp)) hR hCs.1)
          (fun z hz => hP z (by simp [hz]))).2 ⟨ys, hRs, hCs.2, rfl⟩

theorem loop_ub {S X : Type} {f : S → X → Outcome S} {I : S → Prop} {P : X → Prop}
    (hf : ∀ s x, I s → P x → f s x ≠ .ub)
    (hI : ∀ s x r, I s → P x → f s x = .ok r → I r) :
    ∀ (xs : List X) (s : S), I s → (∀ x ∈ xs, P x) → xs.foldlM f s ≠ .ub
  | [], s, _, _ => by simp
  | x :: xs, s, hs, hP => by
    rw [List.foldlM_cons, Ne, bind_ub]
    rintro (h | ⟨s', h1, h2⟩)
    · exact hf s x hs (hP x (by simp)) h
    · exact loop_ub hf hI xs s' (hI s x s' hs (hP x (by simp)) h1)
        (fun z hz => hP z (by simp [hz])) h2

theorem forall₂_left {X Y : Type} {R : X → Y → Prop} {xs : List X} {ys : List Y}
    (h : List.Forall₂ R xs ys) {x : X} (hx : x ∈ xs) : ∃ y ∈ ys, R x y := by
  induction h with
  | nil => simp at hx
  | cons h _ ih =>
    rcases List.mem_cons.1 hx with rfl | hx
    · exact ⟨_, by simp, h⟩
    · obtain ⟨y, hy, h⟩ := ih hx; exact ⟨y, by simp [hy], h⟩

theorem forall₂_right {X Y : Type} {R : X → Y → Prop} {xs : List X} {ys : List Y}
    (h : List.Forall₂ R xs ys) {y : Y} (hy : y ∈ ys) : ∃ x ∈ xs, R x y := by
  induction h with
  | nil => simp at hy
  | cons h _ ih =>
    rcases List.mem_cons.1 hy with rfl | hy
    · exact ⟨_, by simp, h⟩
    · obtain ⟨x, hx, h⟩ := ih hy; exact ⟨x, by simp [hx], h⟩

theorem forall₂_exists {X Y : Type} {R : X → Y → Prop} {xs : List X}
    (h : ∀ x ∈ xs, ∃ y, R x y) : ∃ ys, List.Forall₂ R xs ys := by
  induction xs with
  | nil => exact ⟨[], .nil⟩
  | cons x xs ih =>
    obtain ⟨ys, hys⟩ := ih fun z hz => h z (by simp [hz])
    obtain ⟨y, hy⟩ := h x (by simp)
    exact ⟨y :: ys, .cons hy hys⟩

/-! ### The map of ids -/

theorem find_insert (ids : List (Id × Nat)) (id k : Id) (v : Nat) :
    find (insert ids id v) k = if id = k then some v else find ids k := by
  induction ids with
  | nil => simp [insert, find]
  | cons p ids ih =>
    obtain ⟨q, w⟩ := p
    simp only [insert]
    by_cases h : q = id
    · subst h
      rw [if_pos rfl]
      simp only [find]
      by_cases h2 : q = k <;> simp [h2]
    · rw [if_neg h]
      simp only [find, ih]
      by_cases h2 : q = k
      · have : ¬ id = k := fun h3 => h (h2.trans h3.symm)
        simp [h2, this]
      · simp [h2]

theorem keys_insert (ids : List (Id × Nat)) (id : Id) (v : Nat)
    (h : (ids.map Prod.fst).Nodup) : ((insert ids id v).map Prod.fst).Nodup := by
  have hm : ∀ (ids : List (Id × Nat)) q, q ∈ (insert ids id v).map Prod.fst ↔
      q = id ∨ q ∈ ids.map Prod.fst := by
    intro ids q
    induction ids with
    | nil => simp [insert]
    | cons p ids ih =>
      obtain ⟨k, w⟩ := p
      simp only [insert]
      by_cases hk : k = id
      · subst hk; simp
      · rw [if_neg hk]
        simp only [List.map_cons, List.mem_cons, ih]
        tauto
  induction ids with
  | nil => simp [insert]
  | cons p ids ih =>
    obtain ⟨k, w⟩ := p
    simp only [List.map_cons, List.nodup_cons] at h
    simp only [insert]
    by_cases hk : k = id
    · rw [if_pos hk]; simpa using h
    · rw [if_neg hk]
      simp only [List.map_cons, List.nodup_cons]
      refine ⟨?_, ih h.2⟩
      rw [hm]
      rintro (h2 | h2)
      · exact hk h2
      · exact h.1 h2

theorem find_mem {V : Type} {ids : List (Id × V)} {k : Id} {v : V} (h : find ids k = some v) :
    (k, v) ∈ ids := by
  induction ids with
  | nil => simp [find] at h
  | cons p ids ih =>
    obtain ⟨q, w⟩ := p
    simp only [find] at h
    by_cases hq : q = k
    · rw [if_pos hq] at h; simp_all
    · rw [if_neg hq] at h; simp [ih h]

theorem mem_find {V : Type} {ids : List (Id × V)} {k : Id} {v : V}
    (hn : (ids.map Prod.fst).Nodup) (h : (k, v) ∈ ids) : find ids k = some v := by
  induction ids with
  | nil => simp at h
  | cons p ids ih =>
    obtain ⟨q, w⟩ := p
    simp only [List.map_cons, List.nodup_cons] at hn
    simp only [find]
    rcases List.mem_cons.1 h with h | h
    · cases h; simp
    · rw [if_neg, ih hn.2 h]
      rintro rfl
      exact hn.1 (List.mem_map.2 ⟨_, h, rfl⟩)

/-! ### Texts -/

theorem isBlank_iff {c : Char} : isBlank c = true ↔ c = ' ' ∨ c = '\t' := by
  simp [isBlank]

theorem dropWhile_spec (p : Char → Bool) (t : List Char) :
    ∃ l, t = l ++ t.dropWhile p ∧ (∀ c ∈ l, p c = true) ∧
      ∀ c, (t.dropWhile p).head? = some c → p c = false := by
  induction t with
  | nil => exact ⟨[], by simp⟩
  | cons c t ih =>
    obtain ⟨l, h1, h2, h3⟩ := ih
    by_cases hc : p c = true
    · refine ⟨c :: l, ?_, ?_, ?_⟩
      · rw [List.dropWhile_cons_of_pos hc, List.cons_append, ← h1]
      · simpa [hc] using h2
      · rw [List.dropWhile_cons_of_pos hc]; exact h3
    · refine ⟨[], ?_, by simp, ?_⟩
      · rw [List.dropWhile_cons_of_neg hc]; rfl
      · rw [List.dropWhile_cons_of_neg hc]
        intro d hd; simp at hd; subst hd; simpa using hc

theorem dropWhile_append_all (p : Char → Bool) (l n : List Char) (h : ∀ c ∈ l, p c = true)
    (hn : ∀ c, n.head? = some c → p c = false) : (l ++ n).dropWhile p = n := by
  induction l with
  | nil =>
    cases n with
    | nil => rfl
    | cons c n => simp [hn c (by simp)]
  | cons c l ih =>
    rw [List.cons_append, List.dropWhile_cons_of_pos (h c (by simp))]
    exact ih fun d hd => h d (by simp [hd])

theorem stripped_trim (t : Id) : Stripped t (trim t) := by
  obtain ⟨l, h1, h2, h3⟩ := dropWhile_spec isBlank t
  obtain ⟨r, h4, h5, h6⟩ := dropWhile_spec isBlank (t.dropWhile isBlank).reverse
  have e : t.dropWhile isBlank = trim t ++ r.reverse := by
    have := congrArg List.reverse h4
    rw [List.reverse_reverse, List.reverse_append] at this
    exact this
  refine ⟨l, r.reverse, ?_, ?_, ?_⟩
  · rw [List.append_assoc, ← e]; exact h1
  · intro c hc
    rcases List.mem_append.1 hc with hc | hc
    · exact isBlank_iff.1 (h2 c hc)
    · exact isBlank_iff.1 (h5 c (by simpa using hc))
  · intro c hc
    have : isBlank c = false := by
      rcases hc with hc | hc
      · apply h3
        rw [e]
        cases hn : trim t with
        | nil => rw [hn] at hc; simp at hc
        | cons d n => rw [hn] at hc; simpa using hc
      · apply h6
        rw [trim, List.getLast?_reverse] at hc
        exact hc
    have hb := isBlank_iff (c := c)
    rw [this] at hb
    simpa [not_or] using hb

theorem stripped_eq {t n : Id} (h : Stripped t n) : n = trim t := by
  obtain ⟨l, r, rfl, hb, hn⟩ := h
  have h1 : ∀ c ∈ l, isBlank c = true := fun c hc => isBlank_iff.2 (hb c (by simp [hc]))
  have h2 : ∀ c ∈ r.reverse, isBlank c = true := fun c hc =>
    isBlank_iff.2 (hb c (by simp at hc; simp [hc]))
  have nb : ∀ c, c ≠ ' ' ∧ c ≠ '\t' → isBlank c = false := fun c hc => by
    simp [isBlank, hc.1, hc.2]
  cases n with
  | nil =>
    have : (l ++ [] ++ r).dropWhile isBlank = [] := by
      have := dropWhile_append_all isBlank (l ++ r) [] (fun c hc =>
        (List.mem_append.1 hc).elim (h1 c) fun h => h2 c (by simpa using h)) (by simp)
      simpa using this
    rw [trim, this]; rfl
  | cons d n =>
    have e1 : (l ++ (d :: n) ++ r).dropWhile isBlank = (d :: n) ++ r := by
      rw [List.append_assoc]
      refine dropWhile_append_all _ _ _ h1 ?_
      intro c hc
      refine nb c (hn c (Or.inl ?_))
      simpa using hc
    rw [trim, e1, List.reverse_append, dropWhile_append_all _ _ _ h2, List.reverse_reverse]
    intro c hc
    rw [List.head?_reverse] at hc
    exact nb c (hn c (Or.inr hc))

theorem stripped_iff {t n : Id} : Stripped t n ↔ trim t = n :=
  ⟨fun h => (stripped_eq h).symm, fun h => h ▸ stripped_trim t⟩

theorem hasName_iff {t : Option Id} {n : Id} : HasName t n ↔ ∃ s, t = some s ∧ trim s = n := by
  simp only [HasName, stripped_iff]

theorem hasName_unique {t : Option Id} {n m : Id} (h : HasName t n) (h' : HasName t m) : n = m := by
  obtain ⟨s, hs, rfl⟩ := hasName_iff.1 h
  obtain ⟨s', hs', rfl⟩ := hasName_iff.1 h'
  rw [hs] at hs'; cases hs'; rfl

theorem validId_iff {n : Id} : validId n = true ↔ ValidName n := by
  simp only [validId, ValidName, Bool.and_eq_true, Bool.not_eq_true', List.isEmpty_eq_false_iff,
    List.all_eq_true, idChar, Bool.or_eq_true, decide_eq_true_eq, List.mem_cons, List.not_mem_nil,
    or_false]
  constructor
  · rintro ⟨h, h2⟩; exact ⟨h, fun c hc => by have := h2 c hc; tauto⟩
  · rintro ⟨h, h2⟩; exact ⟨h, fun c hc => by have := h2 c hc; tauto⟩

theorem white_iff (c : Char) : isSpace c = decide (White c) := by
  rw [Bool.eq_iff_iff, decide_eq_true_iff]
  simp only [isSpace, White, Bool.or_eq_true, decide_eq_true_eq, or_assoc]

/-! ### Lists of names -/

theorem split_ne_nil : ∀ t, split t ≠ []
  | [] => by simp [split]
  | [c] => by simp only [split]; split_ifs <;> simp
  | c :: d :: rest => by
    have h := split_ne_nil (d :: rest)
    rw [split]
    by_cases hc : c = ','
    · rw [if_pos hc]
      by_cases hd : d = ','
      · rw [if_pos hd]; exact h
      · rw [if_neg hd]; simp
    · rw [if_neg hc]
      cases e : split (d :: rest) with
      | nil => exact absurd e h
      | cons t ts => simp

/-- The tokens of a text that starts with a character other than a comma. -/
theorem split_cons {c : Char} (hc : c ≠ ',') {t : List Char} {n : Id} {ns : List Id}
    (h : split t = n :: ns) : split (c :: t) = (c :: n) :: ns := by
  cases t with
  | nil => simp only [split] at h; cases h; simp [split, hc]
  | cons d rest => rw [split, if_neg hc, h]

theorem split_comma {t : List Char} (h : t.head? ≠ some ',') : split (',' :: t) = [] :: split t := by
  cases t with
  | nil => simp [split]
  | cons d rest =>
    have hd : d ≠ ',' := by simpa using h
    rw [split, if_pos rfl, if_neg hd]

theorem split_commas (k : Nat) {t : List Char} (h : t.head? ≠ some ',') :
    split (List.replicate (k + 1) ',' ++ t) = [] :: split t := by
  induction k with
  | zero => exact split_comma h
  | succ k ih =>
    rw [List.replicate_succ, List.cons_append, List.replicate_succ, List.cons_append, split,
      if_pos rfl, if_pos rfl, ← List.cons_append, ← List.replicate_succ]
    exact ih

theorem split_append {n : Id} (hn : ',' ∉ n) {t : List Char} {m : Id} {ns : List Id}
    (h : split t = m :: ns) : split (n ++ t) = (n ++ m) :: ns := by
  induction n with
  | nil => exact h
  | cons c n ih =>
    have hc : c ≠ ',' := fun e => hn (by simp [e])
    exact split_cons hc (ih fun h => hn (by simp [h]))

theorem separated_head {t : List Char} {ns : List Id} (h : Separated t ns) :
    t.head? ≠ some ',' := by
  cases h with
  | one n h1 h2 =>
    cases t with
    | nil => simp
    | cons c t => simp at h2 ⊢; exact fun h => h2.1 h.symm
  | more n k rest ns h1 h2 _ =>
    cases n with
    | nil => exact absurd rfl h1
    | cons c n => simp at h2 ⊢; exact fun h => h2.1 h.symm

theorem split_separated {t : List Char} {ns : List Id} (h : Separated t ns) :
    split t = ns ∧ ∀ n ∈ ns, n ≠ [] := by
  induction h with
  | one n h1 h2 =>
    refine ⟨?_, by simpa using h1⟩
    have := split_append h2 (t := []) (m := []) (ns := []) (by simp [split])
    simpa using this
  | more n k rest ns h1 h2 h3 ih =>
    refine ⟨?_, ?_⟩
    · rw [List.append_assoc]
      have := split_append h2 (split_commas k (separated_head h3))
      rw [this, ih.1]; simp
    · intro m hm
      rcases List.mem_cons.1 hm with rfl | hm
      · exact h1
      · exact ih.2 m hm

theorem split_shape : ∀ t : List Char, (',' ∉ t ∧ split t = [t]) ∨
    ∃ n k rest, ',' ∉ n ∧ t = n ++ List.replicate (k + 1) ',' ++ rest ∧ rest.head? ≠ some ',' ∧
      split t = n :: split rest
  | [] => Or.inl (by simp [split])
  | c :: t => by
    by_cases hc : c = ','
    · subst hc
      right
      rcases ht : t.head? with _ | d
      · cases t with
        | nil => exact ⟨[], 0, [], by simp, by simp, by simp, split_comma (by simp)⟩
        | cons d t => simp at ht
      · by_cases hd : d = ','
        · subst hd
          rcases split_shape t with ⟨h1, _⟩ | ⟨n, k, rest, h1, h2, h3, h4⟩
          · cases t with
            | nil => simp at ht
            | cons e t => simp at ht; subst ht; simp at h1
          · have hn : n = [] := by
              cases n with
              | nil => rfl
              | cons e n =>
                rw [h2] at ht; simp at ht; subst ht; simp at h1
            subst hn
            refine ⟨[], k + 1, rest, by simp, ?_, h3, ?_⟩
            · rw [h2]; simp [List.replicate_succ]
            · rw [h2, ← split_commas (k + 1) h3]; simp [List.replicate_succ]
        · exact ⟨[], 0, t, by simp, by simp, by rw [ht]; simpa using hd,
            split_comma (by rw [ht]; simpa using hd)⟩
    · rcases split_shape t with ⟨h1, h2⟩ | ⟨n, k, rest, h1, h2, h3, h4⟩
      · left
        refine ⟨?_, split_cons hc h2⟩
        simp only [List.mem_cons, not_or]; exact ⟨fun h => hc h.symm, h1⟩
      · right
        refine ⟨c :: n, k, rest, ?_, by rw [h2]; simp, h3, split_cons hc h4⟩
        simp only [List.mem_cons, not_or]; exact ⟨fun h => hc h.symm, h1⟩

theorem separated_split : ∀ (m : Nat) (t : List Char), t.length ≤ m → (∀ n ∈ split t, n ≠ []) →
    Separated t (split t) := by
  intro m
  induction m with
  | zero =>
    intro t ht h
    have : t = [] := List.length_eq_zero_iff.1 (by omega)
    subst this
    exact absurd rfl (h [] (by simp [split]))
  | succ m ih =>
    intro t ht h
    rcases split_shape t with ⟨h1, h2⟩ | ⟨n, k, rest, h1, h2, h3, h4⟩
    · rw [h2] at h ⊢
      exact .one t (h t (by simp)) h1
    · rw [h4] at h ⊢
      have := Separated.more n k rest (split rest) (h n (by simp)) h1
        (ih rest (by rw [h2] at ht; simp at ht; omega) fun x hx => h x (by simp [hx]))
      rw [← h2] at this
      exact this

theorem separated_iff {t : List Char} {ns : List Id} :
    Separated t ns ↔ split t = ns ∧ ∀ n ∈ ns, n ≠ [] :=
  ⟨split_separated, fun ⟨h1, h2⟩ => h1 ▸ separated_split t.length t (Nat.le_refl _) (h1 ▸ h2)⟩

/-! ### Coordinates and adjustments -/

theorem height_ok [Zero K] {d : Bool} {e : Entry K} {z : K} :
    height d e = .ok z ↔ IsHeight (d = true) e z := by
  cases d with
  | true =>
    simp only [height, if_true, Outcome.ok.injEq]
    constructor
    · rintro rfl
      cases e with
      | val v => exact .given v
      | missing => exact .omitted _ trivial (fun v => by simp)
      | malformed => exact .omitted _ trivial (fun v => by simp)
    · intro h
      cases h with
      | given => rfl
      | omitted e _ h =>
        cases e with
        | val v => exact absurd rfl (h v)
        | missing => rfl
        | malformed => rfl
  | false =>
    rw [height, if_neg (by simp), entry_get_ok]
    constructor
    · rintro rfl; exact .given _
    · intro h
      cases h with
      | given => rfl
      | omitted e h _ => simp at h

theorem height_ub [Zero K] {d : Bool} {e : Entry K} : height d e ≠ .ub := by
  unfold height
  split_ifs
  · simp
  · exact entry_get_ub

theorem parseCoord_ok [Zero K] {cv : Conv K} {d i : Bool} {c : Coord K} {p : XYZ K} :
    parseCoord cv d i c = .ok p ↔ IsPosition cv (d = true) i c p := by
  constructor
  · intro h
    obtain ⟨cs, ps⟩ := c
    simp only [parseCoord] at h
    split_ifs at h with hc
    match cs, ps with
    | [], [] => simp at h
    | [n], [] =>
      obtain ⟨x, y, z⟩ := n
      simp only [parseCart, bind_ok, entry_get_ok, height_ok] at h
      obtain ⟨x', rfl, y', rfl, z', hz, h⟩ := h
      cases h
      exact .cart _ _ _ _ hz
    | [], [n] =>
      obtain ⟨x, y, z⟩ := n
      simp only [parsePolar, bind_ok, entry_get_ok, height_ok] at h
      obtain ⟨x', rfl, y', hz, z', rfl, h⟩ := h
      cases h
      exact .polar _ _ _ _ hz
    | [_], [_] => simp at hc
    | _ :: _ :: _, _ => simp at hc
    | _, _ :: _ :: _ => simp at hc
  · intro h
    cases h with
    | cart x y z e hz =>
      rw [← height_ok] at hz
      simp [parseCoord, parseCart, Entry.get, hz]
    | polar az el r e hz =>
      rw [← height_ok] at hz
      simp [parseCoord, parsePolar, Entry.get, hz]

theorem parseCoord_ub [Zero K] {cv : Conv K} {d i : Bool} {c : Coord K} :
    parseCoord cv d i c ≠ .ub := by
  obtain ⟨cs, ps⟩ := c
  simp only [parseCoord]
  split_ifs
  · simp
  · match cs, ps with
    | [], [] => simp
    | n :: _, _ => simp [parseCart, bind_ub, entry_get_ub, height_ub]
    | [], n :: _ => simp [parsePolar, bind_ub, entry_get_ub, height_ub]

theorem get?_some {α : Type} {e : Entry α} {v : α} : e.get? = some v ↔ e = .val v := by
  cases e <;> simp [Entry.get?]

theorem get?_none {α : Type} {e : Entry α} : e.get? = none ↔ Absent e := by
  cases e <;> simp [Entry.get?, Absent]

theorem isDelay_iff [Zero K] {n : Adjust K} {d : K} : IsDelay n d ↔ n.delay.getD 0 = d := by
  constructor
  · intro h
    cases h with
    | given _ h => rw [h]; rfl
    | default h =>
      rw [← get?_none] at h
      cases e : n.delay with
      | val v => rw [e] at h; simp [Entry.get?] at h
      | missing => rfl
      | malformed => rfl
  · rintro rfl
    cases e : n.delay with
    | val v => exact .given v e
    | missing => exact .default (fun v => by simp [e])
    | malformed => exact .default (fun v => by simp [e])

theorem parseAdjust_ok [Zero K] [One K] {cv : Conv K} {n : Adjust K} {x : K × K} :
    parseAdjust cv n = .ok x ↔ IsGain cv n x.1 ∧ IsDelay n x.2 := by
  rw [isDelay_iff]
  unfold parseAdjust
  constructor
  · intro h
    split at h <;> rename_i h1 h2
    · cases h
    · cases h; rw [get?_some] at h1; rw [get?_none] at h2; exact ⟨.linear _ h1 h2, rfl⟩
    · cases h; rw [get?_none] at h1; rw [get?_some] at h2; exact ⟨.dB _ h1 h2, rfl⟩
    · cases h; rw [get?_none] at h1 h2; exact ⟨.default h1 h2, rfl⟩
  · obtain ⟨g, d⟩ := x
    rintro ⟨h, rfl⟩
    cases h with
    | linear _ h1 h2 => rw [get?_some.2 h1, get?_none.2 h2]
    | dB d h1 h2 => rw [get?_none.2 h1, get?_some.2 h2]
    | default h1 h2 => rw [get?_none.2 h1, get?_none.2 h2]; rfl

theorem parseAdjust_ub [Zero K] [One K] {cv : Conv K} {n : Adjust K} : parseAdjust cv n ≠ .ub := by
  unfold parseAdjust
  split <;> simp

/-! ### Equalisation -/

theorem getD_one [One K] {e : Entry K} {a : K} :
    e.getD 1 = a ↔ (e = .val a ∨ (Absent e ∧ a = 1)) := by
  cases e <;> simp [Entry.getD, Absent, eq_comm]

theorem parseSection_ok [Div K] [One K] {s : Section K} {c : Biquad.Coef K} :
    parseSection s = .ok c ↔ IsSection s c := by
  simp only [parseSection, bind_ok, entry_get_ok, Outcome.ok.injEq, IsSection]
  constructor
  · rintro ⟨a1, h1, a2, h2, b0, h3, b1, h4, b2, h5, rfl⟩
    exact ⟨s.a0.getD 1, a1, a2, b0, b1, b2, getD_one.1 rfl, h1, h2, h3, h4, h5, rfl⟩
  · rintro ⟨a0, a1, a2, b0, b1, b2, h0, h1, h2, h3, h4, h5, rfl⟩
    have := getD_one.2 h0
    exact ⟨a1, h1, a2, h2, b0, h3, b1, h4, b2, h5, by rw [this]⟩

theorem parseSection_ub [Div K] [One K] {s : Section K} : parseSection s ≠ .ub := by
  simp [parseSection, bind_ub, entry_get_ub]

theorem parseSections_ok [Div K] [One K] {ss : List (Section K)} {cs : List (Biquad.Coef K)} :
    parseSections ss = .ok cs ↔ List.Forall₂ IsSection ss cs := by
  induction ss generalizing cs with
  | nil => simp [parseSections, eq_comm]
  | cons s ss ih =>
    simp only [parseSections, bind_ok, parseSection_ok, ih, Outcome.ok.injEq,
      List.forall₂_cons_left_iff]
    constructor
    · rintro ⟨c, h1, cs', h2, rfl⟩; exact ⟨c, cs', h1, h2, rfl⟩
    · rintro ⟨c, cs', h1, h2, rfl⟩; exact ⟨c, h1, cs', h2, rfl⟩

theorem parseSections_ub [Div K] [One K] {ss : List (Section K)} : parseSections ss ≠ .ub := by
  induction ss with
  | nil => simp [parseSections]
  | cons s ss ih => simp [parseSections, bind_ub, parseSection_ub, ih]

/-- A filter specification read from the file. -/
def IsSpec [Div K] [One K] (s : FilterSpec K) (p : Id × List (Biquad.Coef K)) : Prop :=
  s.name = some p.1 ∧ List.Forall₂ IsSection s.sections p.2

theorem parseSpecs_ok [Div K] [One K] {ss : List (FilterSpec K)}
    {t : List (Id × List (Biquad.Coef K))} :
    parseSpecs ss = .ok t ↔ List.Forall₂ IsSpec ss t := by
  induction ss generalizing t with
  | nil => simp [parseSpecs, eq_comm]
  | cons s ss ih =>
    simp only [parseSpecs, bind_ok, getText_ok, parseSections_ok, ih, Outcome.ok.injEq,
      List.forall₂_cons_left_iff]
    constructor
    · rintro ⟨n, h1, f, h2, cs', h3, rfl⟩; exact ⟨(n, f), cs', ⟨h1, h2⟩, h3, rfl⟩
    · rintro ⟨⟨n, f⟩, cs', ⟨h1, h2⟩, h3, rfl⟩; exact ⟨n, h1, f, h2, cs', h3, rfl⟩

theorem parseSpecs_ub [Div K] [One K] {ss : List (FilterSpec K)} : parseSpecs ss ≠ .ub := by
  induction ss with
  | nil => simp [parseSpecs]
  | cons s ss ih => simp [parseSpecs, bind_ub, getText_ub, parseSections_ub, ih]

/-- The table of filters belongs to the configuration. -/
def IsTable [Div K] [One K] (e : EqConfig K) (t : EqTable K) : Prop :=
  e.numberOfBiquads = .val t.sections ∧ List.Forall₂ IsSpec e.specs t.filters

theorem parseEqConfig_ok [Div K] [One K] {cs : List (EqConfig K)} {t : Option (EqTable K)} :
    parseEqConfig cs = .ok t ↔
      (cs = [] ∧ t = none) ∨ ∃ e t', cs = [e] ∧ t = some t' ∧ IsTable e t' := by
  match cs with
  | [] => simp [parseEqConfig, eq_comm]
  | [e] =>
    simp only [parseEqConfig, bind_ok, entry_get_ok, parseSpecs_ok, Outcome.ok.injEq, IsTable]
    constructor
    · rintro ⟨n, h1, t', h2, rfl⟩; exact Or.inr ⟨e, ⟨n, t'⟩, rfl, rfl, h1, h2⟩
    · rintro (⟨h, _⟩ | ⟨e', ⟨n, t'⟩, h, rfl, h1, h2⟩)
      · simp at h
      · cases h; exact ⟨n, h1, t', h2, rfl⟩
  | _ :: _ :: _ => simp [parseEqConfig]

theorem parseEqConfig_ub [Div K] [One K] {cs : List (EqConfig K)} : parseEqConfig cs ≠ .ub := by
  match cs with
  | [] => simp [parseEqConfig]
  | [e] => simp [parseEqConfig, bind_ub, entry_get_ub, parseSpecs_ub]
  | _ :: _ :: _ => simp [parseEqConfig]

theorem isTable_exists [Div K] [One K] {e : EqConfig K} : (∃ t, IsTable e t) ↔ EqReadable e := by
  constructor
  · rintro ⟨t, h1, h2⟩
    refine ⟨⟨_, h1⟩, ?_⟩
    intro s hs
    obtain ⟨p, _, hp⟩ := forall₂_left h2 hs
    exact ⟨⟨_, hp.1⟩, _, hp.2⟩
  · rintro ⟨⟨n, hn⟩, h⟩
    obtain ⟨t, ht⟩ := forall₂_exists (R := IsSpec) (xs := e.specs) fun s hs => by
      obtain ⟨⟨name, h1⟩, f, h2⟩ := h s hs
      exact ⟨(name, f), h1, h2⟩
    exact ⟨⟨n, t⟩, hn, ht⟩

theorem find_spec [Div K] [One K] {ss : List (FilterSpec K)} {t : List (Id × List (Biquad.Coef K))}
    (h : List.Forall₂ IsSpec ss t) {name : Id} {f : List (Biquad.Coef K)} :
    find t name = some f ↔ ∃ before s after, ss = before ++ s :: after ∧ s.name = some name ∧
      (∀ s' ∈ before, s'.name ≠ some name) ∧ List.Forall₂ IsSection s.sections f := by
  induction h with
  | nil => simp [find]
  | cons hs h ih =>
    rename_i s p ss t
    obtain ⟨n, g⟩ := p
    obtain ⟨h1, h2⟩ := hs
    simp only at h1 h2
    simp only [find]
    by_cases hn : n = name
    · subst hn
      rw [if_pos rfl]
      constructor
      · intro h; cases h; exact ⟨[], s, ss, rfl, h1, by simp, h2⟩
      · rintro ⟨before, s', after, e, h3, h4, h5⟩
        cases before with
        | nil =>
          simp only [List.nil_append, List.cons.injEq] at e
          obtain ⟨rfl, _⟩ := e
          rw [← parseSections_ok] at h2 h5
          rw [h2] at h5; cases h5; rfl
        | cons b before =>
          simp only [List.cons_append, List.cons.injEq] at e
          obtain ⟨rfl, _⟩ := e
          exact absurd h1 (h4 s (by simp))
    · rw [if_neg hn, ih]
      constructor
      · rintro ⟨before, s', after, e, h3, h4, h5⟩
        refine ⟨s :: before, s', after, by rw [e]; rfl, h3, ?_, h5⟩
        intro x hx
        rcases List.mem_cons.1 hx with rfl | hx
        · rw [h1]; simpa using hn
        · exact h4 x hx
      · rintro ⟨before, s', after, e, h3, h4, h5⟩
        cases before with
        | nil =>
          simp only [List.nil_append, List.cons.injEq] at e
          obtain ⟨rfl, _⟩ := e
          rw [h1] at h3; simp at h3; exact absurd h3 hn
        | cons b before =>
          simp only [List.cons_append, List.cons.injEq] at e
          exact ⟨before, s', after, e.2, h3, fun x hx => h4 x (by simp [hx]), h5⟩

theorem eqFilter_ok [Div K] [One K] {e : EqConfig K} {t : EqTable K} (h : IsTable e t)
    {eq : Option Id} {f : List (Biquad.Coef K)} : eqFilter t eq = .ok f ↔ IsFilter e eq f := by
  cases eq with
  | none => simp [eqFilter, IsFilter, eq_comm]
  | some n =>
    have := find_spec h.2 (name := n) (f := f)
    simp only [eqFilter, IsFilter, reduceCtorEq, false_and, false_or, Option.some.injEq]
    constructor
    · intro h
      split at h
      · cases h
      · rename_i g hg
        cases h
        obtain ⟨b, s, a, h⟩ := this.1 hg
        exact ⟨n, b, s, a, rfl, h⟩
    · rintro ⟨name, b, s, a, rfl, h⟩
      rw [this.2 ⟨b, s, a, h⟩]

theorem eqFilter_ub {t : EqTable K} {eq : Option Id} : eqFilter t eq ≠ .ub := by
  unfold eqFilter
  split
  · simp
  · split <;> simp

end Visr.ArrayConfig
