import Verif.RoutingParameter.Lemmas

/-!
# Routing strings (C44)
-/

namespace Visr.RoutingParameter
open Visr

/-! ## Specification: the accepted strings -/

def Spaces (w : List Char) : Prop := ∀ c ∈ w, isSpace c = true

/-- Value of a string of decimal digits. -/
def value (ds : List Char) : Nat := ds.foldl (fun v c => v * 10 + (c.toNat - 48)) 0

/-- A decimal number below 2^32 (leading zeros allowed). -/
def Number (ds : List Char) : Prop := ds ≠ [] ∧ (∀ c ∈ ds, isDigit c = true) ∧ value ds < 2 ^ 32

/-- The text of one pair `in = out`, with optional white space before and around the equal sign. -/
structure Pair where
  w1 : List Char
  inDigits : List Char
  w2 : List Char
  w3 : List Char
  outDigits : List Char

def Pair.Valid (p : Pair) : Prop := Spaces p.w1 ∧ Number p.inDigits ∧ Spaces p.w2 ∧ Spaces p.w3 ∧ Number p.outDigits

def Pair.text (p : Pair) : List Char := p.w1 ++ (p.inDigits ++ (p.w2 ++ '=' :: (p.w3 ++ p.outDigits)))

def Pair.entry (p : Pair) : Entry := ⟨value p.inDigits, value p.outDigits⟩

/-- The texts of further pairs: white space, a comma, the pair. -/
def moreText : List (List Char × Pair) → List Char
  | [] => []
  | (w, p) :: rest => w ++ ',' :: (p.text ++ moreText rest)

/-- Assigning the pairs in order, later ones replacing earlier ones with the same output. -/
def routingsOf (ps : List Pair) : List Entry := ps.foldl (fun s p => addRouting s p.entry) []

/-! ## Helper facts -/

theorem skip_spaces (w s : List Char) (hw : Spaces w) : skip (w ++ s) = skip s := by
  unfold skip
  induction w with
  | nil => rfl
  | cons c w ih =>
    have hc := hw c (by simp)
    rw [List.cons_append, List.dropWhile_cons, if_pos hc]
    exact ih (fun x hx => hw x (by simp [hx]))

theorem skip_decomp (s : List Char) : ∃ w, Spaces w ∧ s = w ++ skip s := by
  unfold skip
  induction s with
  | nil => exact ⟨[], by simp [Spaces], rfl⟩
  | cons c s ih =>
    rw [List.dropWhile_cons]
    by_cases hc : isSpace c = true
    · obtain ⟨w, hw, h⟩ := ih
      rw [if_pos hc]
      refine ⟨c :: w, ?_, by rw [List.cons_append, ← h]⟩
      intro x hx
      rcases List.mem_cons.1 hx with rfl | hx
      · exact hc
      · exact hw x hx
    · rw [if_neg hc]; exact ⟨[], by simp [Spaces], rfl⟩

theorem skip_head {s : List Char} {c : Char} {cs : List Char} (h : skip s = c :: cs) : isSpace c = false := by
  unfold skip at h
  induction s with
  | nil => simp at h
  | cons d s ih =>
    rw [List.dropWhile_cons] at h
    split at h
    · exact ih h
    · rename_i hd
      injection h with h1 h2
      rw [← h1]; simpa using hd

theorem skip_nonspace {c : Char} {cs : List Char} (h : isSpace c = false) : skip (c :: cs) = c :: cs := by
  unfold skip
  rw [List.dropWhile_cons, if_neg (by simp [h])]

theorem blank_none (s : List Char) : blank s = none := by
  unfold blank
  split
  · rfl
  · rename_i c cs h
    have := skip_head h
    rw [if_neg]
    rintro (rfl | rfl)
    · simp [isSpace] at this
    · exact absurd this (by decide)

theorem digit_not_space {c : Char} (h : isDigit c = true) : isSpace c = false := by
  simp only [isDigit, isSpace, Bool.and_eq_true, decide_eq_true_eq, Bool.or_eq_false_iff, beq_eq_false_iff_ne,
    Bool.and_eq_false_iff, decide_eq_false_iff_not] at *
  refine ⟨?_, by omega⟩
  rintro rfl
  exact absurd h.1 (by decide)

/-- The next character is not a digit. -/
def NoDigit (s : List Char) : Prop := ∀ c cs, s = c :: cs → isDigit c = false

theorem value_fold_le (ds : List Char) (v : Nat) : v ≤ ds.foldl (fun v c => v * 10 + (c.toNat - 48)) v := by
  induction ds generalizing v with
  | nil => exact Nat.le_refl _
  | cons c ds ih => rw [List.foldl_cons]; exact Nat.le_trans (by omega) (ih _)

theorem digits_complete (ds : List Char) (acc : Nat) (rest : List Char) (hd : ∀ c ∈ ds, isDigit c = true)
    (hv : ds.foldl (fun v c => v * 10 + (c.toNat - 48)) acc < 2 ^ 32) (hr : NoDigit rest) :
    digits acc (ds ++ rest) = some (ds.foldl (fun v c => v * 10 + (c.toNat - 48)) acc, rest) := by
  induction ds generalizing acc with
  | nil =>
    cases rest with
    | nil => rfl
    | cons c cs => simp only [List.nil_append, digits, hr c cs rfl]; rfl
  | cons c ds ih =>
    rw [List.foldl_cons] at hv ⊢
    rw [List.cons_append, digits, if_pos (hd c (by simp))]
    have := value_fold_le ds (acc * 10 + (c.toNat - 48))
    simp only
    rw [if_pos (by omega)]
    exact ih _ (fun x hx => hd x (by simp [hx])) hv

theorem digits_sound (s : List Char) (acc v : Nat) (rest : List Char) (hacc : acc < 2 ^ 32)
    (h : digits acc s = some (v, rest)) :
    ∃ ds, s = ds ++ rest ∧ (∀ c ∈ ds, isDigit c = true) ∧ v = ds.foldl (fun v c => v * 10 + (c.toNat - 48)) acc ∧
      v < 2 ^ 32 ∧ NoDigit rest := by
  induction s generalizing acc with
  | nil =>
    simp only [digits, Option.some.injEq, Prod.mk.injEq] at h
    obtain ⟨rfl, rfl⟩ := h
    exact ⟨[], rfl, by simp, rfl, hacc, by simp [NoDigit]⟩
  | cons c s ih =>
    simp only [digits] at h
    split at h
    · rename_i hc
      split at h
      · rename_i hlt
        obtain ⟨ds, h1, h2, h3, h4, h5⟩ := ih _ hlt h
        refine ⟨c :: ds, by rw [h1]; rfl, ?_, h3, h4, h5⟩
        intro x hx
        rcases List.mem_cons.1 hx with rfl | hx
        · exact hc
        · exact h2 x hx
      · cases h
    · rename_i hc
      simp only [Option.some.injEq, Prod.mk.injEq] at h
      obtain ⟨rfl, rfl⟩ := h
      refine ⟨[], rfl, by simp, rfl, hacc, ?_⟩
      intro x xs hx
      injection hx with h1 h2
      rw [← h1]; simpa using hc

theorem uint_complete (w ds rest : List Char) (hw : Spaces w) (hn : Number ds) (hr : NoDigit rest) :
    uint (w ++ (ds ++ rest)) = some (value ds, rest) := by
  obtain ⟨hne, hd, hv⟩ := hn
  unfold uint
  rw [skip_spaces w _ hw]
  obtain ⟨c, cs, rfl⟩ := List.exists_cons_of_ne_nil hne
  have hc := hd c (by simp)
  rw [List.cons_append, skip_nonspace (digit_not_space hc)]
  simp only [hc, if_true]
  exact digits_complete (c :: cs) 0 rest hd hv hr

theorem uint_sound {s : List Char} {v : Nat} {rest : List Char} (h : uint s = some (v, rest)) :
    ∃ w ds, s = w ++ (ds ++ rest) ∧ Spaces w ∧ Number ds ∧ v = value ds ∧ NoDigit rest := by
  unfold uint at h
  obtain ⟨w, hw, hs⟩ := skip_decomp s
  split at h
  · cases h
  · rename_i c cs hsk
    split at h
    · rename_i hc
      obtain ⟨ds, h1, h2, h3, h4, h5⟩ := digits_sound _ 0 v rest (by decide) h
      refine ⟨w, ds, by rw [hs, hsk, h1], hw, ⟨?_, h2, by rw [h3] at h4; exact h4⟩, h3, h5⟩
      rintro rfl
      have := h5 c cs (by simpa using h1.symm)
      rw [this] at hc; cases hc
    · cases h

theorem lit_complete (ch : Char) (w rest : List Char) (hw : Spaces w) (hc : isSpace ch = false) :
    lit ch (w ++ ch :: rest) = some rest := by
  unfold lit
  rw [skip_spaces w _ hw, skip_nonspace hc]
  simp

theorem lit_sound {ch : Char} {s rest : List Char} (h : lit ch s = some rest) :
    ∃ w, s = w ++ ch :: rest ∧ Spaces w := by
  unfold lit at h
  obtain ⟨w, hw, hs⟩ := skip_decomp s
  split at h
  · cases h
  · rename_i c cs hsk
    split at h
    · rename_i hc
      simp only [Option.some.injEq] at h
      subst h hc
      exact ⟨w, by rw [hs, hsk], hw⟩
    · cases h

theorem noDigit_of_spaces (w : List Char) (c : Char) (rest : List Char) (hw : Spaces w) (hc : isDigit c = false) :
    NoDigit (w ++ c :: rest) := by
  intro x xs hx
  cases w with
  | nil => simp only [List.nil_append, List.cons.injEq] at hx; rw [← hx.1]; exact hc
  | cons y w =>
    simp only [List.cons_append, List.cons.injEq] at hx
    rw [← hx.1]
    have h1 := hw y (by simp)
    cases h2 : isDigit y
    · rfl
    · rw [digit_not_space h2] at h1; cases h1

theorem element_complete (p : Pair) (hp : p.Valid) (rest : List Char) (hr : NoDigit rest) :
    element (p.text ++ rest) = some (p.entry, rest) := by
  obtain ⟨h1, h2, h3, h4, h5⟩ := hp
  unfold element Pair.text
  have e1 : p.w1 ++ (p.inDigits ++ (p.w2 ++ '=' :: (p.w3 ++ p.outDigits))) ++ rest =
      p.w1 ++ (p.inDigits ++ (p.w2 ++ '=' :: (p.w3 ++ (p.outDigits ++ rest)))) := by simp
  rw [e1, uint_complete _ _ _ h1 h2 (noDigit_of_spaces _ _ _ h3 (by decide))]
  simp only
  rw [lit_complete _ _ _ h3 (by decide)]
  simp only
  rw [uint_complete _ _ _ h4 h5 hr]
  rfl

theorem element_sound {s : List Char} {e : Entry} {rest : List Char} (h : element s = some (e, rest)) :
    ∃ p : Pair, p.Valid ∧ s = p.text ++ rest ∧ e = p.entry ∧ NoDigit rest := by
  unfold element at h
  split at h
  · cases h
  · rename_i i s1 h1
    split at h
    · cases h
    · rename_i s2 h2
      split at h
      · cases h
      · rename_i o s3 h3
        simp only [Option.some.injEq, Prod.mk.injEq] at h
        obtain ⟨rfl, rfl⟩ := h
        obtain ⟨w1, ds1, rfl, a1, a2, rfl, -⟩ := uint_sound h1
        obtain ⟨w2, rfl, b1⟩ := lit_sound h2
        obtain ⟨w3, ds2, rfl, c1, c2, rfl, c3⟩ := uint_sound h3
        exact ⟨⟨w1, ds1, w2, w3, ds2⟩, ⟨a1, a2, b1, c1, c2⟩, by simp [Pair.text], rfl, c3⟩

theorem more_complete (rest : List (List Char × Pair)) (hr : ∀ x ∈ rest, Spaces x.1 ∧ x.2.Valid) (wEnd : List Char)
    (hw : Spaces wEnd) (acc : List Entry) (fuel : Nat) (hf : rest.length ≤ fuel) :
    moreElements fuel acc (moreText rest ++ wEnd) =
      (rest.foldl (fun s x => addRouting s x.2.entry) acc, wEnd) := by
  have hsep : separator wEnd = none := by
    unfold separator
    have : lit ',' wEnd = none := by
      unfold lit
      have h1 : skip (wEnd ++ []) = skip [] := skip_spaces wEnd [] hw
      rw [List.append_nil] at h1
      rw [h1]; rfl
    rw [this]; exact blank_none _
  induction rest generalizing acc fuel with
  | nil =>
    cases fuel with
    | zero => rfl
    | succ f => simp only [moreText, List.nil_append, moreElements, hsep, List.foldl_nil]
  | cons x rest ih =>
    obtain ⟨w, p⟩ := x
    obtain ⟨fuel, rfl⟩ : ∃ k, fuel = k + 1 := ⟨fuel - 1, by simp at hf; omega⟩
    obtain ⟨hw1, hp⟩ := hr (w, p) (by simp)
    have e1 : moreText ((w, p) :: rest) ++ wEnd = w ++ ',' :: (p.text ++ (moreText rest ++ wEnd)) := by
      simp [moreText]
    have hnd : NoDigit (moreText rest ++ wEnd) := by
      cases rest with
      | nil =>
        intro c cs hc
        simp only [moreText, List.nil_append] at hc
        cases h2 : isDigit c
        · rfl
        · have := hw c (by rw [hc]; simp)
          rw [digit_not_space h2] at this; cases this
      | cons y rest =>
        obtain ⟨w', p'⟩ := y
        have e2 : moreText ((w', p') :: rest) ++ wEnd = w' ++ ',' :: (p'.text ++ (moreText rest ++ wEnd)) := by
          simp [moreText]
        rw [e2]
        exact noDigit_of_spaces _ _ _ (hr (w', p') (by simp)).1 (by decide)
    rw [e1, moreElements]
    have hs : separator (w ++ ',' :: (p.text ++ (moreText rest ++ wEnd))) = some (p.text ++ (moreText rest ++ wEnd)) := by
      unfold separator
      rw [lit_complete _ _ _ hw1 (by decide)]
    rw [hs]
    simp only
    rw [element_complete p hp _ hnd]
    simp only
    rw [ih (fun x hx => hr x (by simp [hx])) _ _ (by simp at hf; omega)]
    rfl

theorem more_sound (fuel : Nat) (acc : List Entry) (s : List Char) (hn : NoDigit s) :
    ∃ rest : List (List Char × Pair), (∀ x ∈ rest, Spaces x.1 ∧ x.2.Valid) ∧
      s = moreText rest ++ (moreElements fuel acc s).2 ∧
      (moreElements fuel acc s).1 = rest.foldl (fun s x => addRouting s x.2.entry) acc := by
  induction fuel generalizing acc s with
  | zero => exact ⟨[], by simp, rfl, rfl⟩
  | succ fuel ih =>
    rw [moreElements]
    split
    · exact ⟨[], by simp, rfl, rfl⟩
    · rename_i s1 hsep
      split
      · exact ⟨[], by simp, rfl, rfl⟩
      · rename_i e s2 hel
        obtain ⟨p, hp, h1, h2, h3⟩ := element_sound hel
        obtain ⟨rest, hr, h4, h5⟩ := ih (addRouting acc e) s2 h3
        have hlit : lit ',' s = some s1 := by
          unfold separator at hsep
          split at hsep
          · rename_i h; rw [h]; exact hsep
          · rw [blank_none] at hsep; cases hsep
        obtain ⟨w, hw1, hw2⟩ := lit_sound hlit
        refine ⟨(w, p) :: rest, ?_, ?_, ?_⟩
        · intro x hx
          rcases List.mem_cons.1 hx with rfl | hx
          · exact ⟨hw2, hp⟩
          · exact hr x hx
        · rw [hw1, h1, moreText]
          conv_lhs => rw [h4]
          simp
        · rw [h5, h2]; rfl

/-! ## C44 -/

/-- C44: `parse` returns `true` exactly for the texts made of one or more pairs `in = out` of decimal numbers below 2^32,
separated by commas, with optional white space everywhere between numbers and signs; it then replaces the routings by
those of the text (in order, later pairs replacing earlier ones with the same output). For every other text it returns
`false` and leaves the routings unchanged. -/
theorem routingString_parse (s : List Entry) (encoded : List Char) :
    ((parse s encoded).2 = true ↔
      ∃ (p : Pair) (rest : List (List Char × Pair)) (wEnd : List Char), p.Valid ∧ (∀ x ∈ rest, Spaces x.1 ∧ x.2.Valid) ∧
        Spaces wEnd ∧ encoded = p.text ++ (moreText rest ++ wEnd)) ∧
    (∀ (p : Pair) (rest : List (List Char × Pair)) (wEnd : List Char), p.Valid → (∀ x ∈ rest, Spaces x.1 ∧ x.2.Valid) →
      Spaces wEnd → parse s (p.text ++ (moreText rest ++ wEnd)) = (routingsOf (p :: rest.map Prod.snd), true)) ∧
    ((parse s encoded).2 = false → (parse s encoded).1 = s) := by
  have hcomplete : ∀ (p : Pair) (rest : List (List Char × Pair)) (wEnd : List Char), p.Valid →
      (∀ x ∈ rest, Spaces x.1 ∧ x.2.Valid) →
      Spaces wEnd → parse s (p.text ++ (moreText rest ++ wEnd)) = (routingsOf (p :: rest.map Prod.snd), true) := by
    intro p rest wEnd hp hr hw
    have hnd : NoDigit (moreText rest ++ wEnd) := by
      cases rest with
      | nil =>
        intro c cs hc
        simp only [moreText, List.nil_append] at hc
        cases h2 : isDigit c
        · rfl
        · have := hw c (by rw [hc]; simp)
          rw [digit_not_space h2] at this; cases this
      | cons y rest =>
        obtain ⟨w', p'⟩ := y
        have e2 : moreText ((w', p') :: rest) ++ wEnd = w' ++ ',' :: (p'.text ++ (moreText rest ++ wEnd)) := by
          simp [moreText]
        rw [e2]
        exact noDigit_of_spaces _ _ _ (hr (w', p') (by simp)).1 (by decide)
    have hlen : rest.length ≤ (moreText rest ++ wEnd).length := by
      clear hr hnd
      induction rest with
      | nil => simp
      | cons x rest ih => obtain ⟨w, q⟩ := x; simp [moreText] at ih ⊢; omega
    unfold parse
    rw [element_complete p hp _ hnd]
    simp only
    rw [more_complete rest hr wEnd hw _ _ hlen]
    have h1 : skip (wEnd ++ []) = skip [] := skip_spaces wEnd [] hw
    rw [List.append_nil] at h1
    rw [if_pos (by simp only [h1]; rfl)]
    simp only [routingsOf, List.foldl_cons, List.foldl_map]
  refine ⟨⟨?_, ?_⟩, hcomplete, ?_⟩
  · intro h
    unfold parse at h
    split at h
    · cases h
    · rename_i e s1 hel
      obtain ⟨p, hp, h1, h2, h3⟩ := element_sound hel
      obtain ⟨rest, hr, h4, h5⟩ := more_sound s1.length (addRouting [] e) s1 h3
      simp only at h
      split at h
      · rename_i hsk
        obtain ⟨w, hw1, hw2⟩ := skip_decomp (moreElements s1.length (addRouting [] e) s1).2
        rw [hsk, List.append_nil] at hw2
        refine ⟨p, rest, w, hp, hr, hw1, ?_⟩
        rw [h1]
        conv_lhs => rw [h4, hw2]
      · cases h
  · rintro ⟨p, rest, wEnd, hp, hr, hw, rfl⟩
    rw [hcomplete p rest wEnd hp hr hw]
  · intro h
    unfold parse at h ⊢
    split at h
    · rfl
    · simp only at h ⊢
      split at h
      · cases h
      · rename_i hsk
        rw [if_neg hsk]

/-- Non-vacuity, and a text with white space instead of commas: contrary to the comment in the code (`:120-121`) it is
rejected, the alternative `qi::blank` can never match. -/
theorem routingString_blank_separator_rejected :
    parse [] " 0 = 1,2=3 ".toList = ([⟨0, 1⟩, ⟨2, 3⟩], true) ∧ parse [] "0=1 2=3".toList = ([], false) := by
  decide +kernel

end Visr.RoutingParameter
