import Verif.MatrixText.Spec
import Mathlib.Data.List.Forall2

/-!
# Matrices and vectors read from texts and audio files: lemmas
-/

namespace Visr.MatrixText

open Visr.ChannelList (isSpace skipWs)
open Visr.RealText

theorem isSpace_iff (c : Char) : isSpace c = true ↔ c ∈ [' ', '\t', '\n', '\r', '\x0b', '\x0c'] := by
  simp [isSpace, or_assoc]

theorem skipWs_blank (a r : List Char) (h : Blank a) : skipWs (a ++ r) = skipWs r := by
  induction a with
  | nil => rfl
  | cons c a ih =>
    have hc : isSpace c = true := (isSpace_iff c).2 (h c (by simp))
    rw [List.cons_append, skipWs, if_pos hc]
    exact ih fun d hd => h d (List.mem_cons_of_mem _ hd)

theorem skipWs_head (s : List Char) (h : ∀ c ∈ s.head?, isSpace c = false) : skipWs s = s := by
  cases s with
  | nil => rfl
  | cons c s => rw [skipWs, h c (by simp)]; rfl

theorem skipWs_split (s : List Char) : ∃ a, Blank a ∧ s = a ++ skipWs s := by
  induction s with
  | nil => exact ⟨[], by intro c hc; simp at hc, rfl⟩
  | cons c s ih =>
    by_cases hc : isSpace c
    · obtain ⟨a, h1, h2⟩ := ih
      refine ⟨c :: a, ?_, ?_⟩
      · intro d hd
        rcases List.mem_cons.1 hd with rfl | hd
        · exact (isSpace_iff _).1 hc
        · exact h1 d hd
      · rw [skipWs, if_pos hc, List.cons_append, ← h2]
    · exact ⟨[], by intro c hc; simp at hc, by rw [skipWs, if_neg hc]; rfl⟩

theorem skipWs_idem (s : List Char) : skipWs (skipWs s) = skipWs s := by
  induction s with
  | nil => rfl
  | cons c s ih =>
    by_cases hc : isSpace c
    · rw [skipWs, if_pos hc, ih]
    · rw [skipWs, if_neg hc, skipWs, if_neg hc]

theorem startsNumber_not (c : Char) (h : startsNumber c = true) : isSpace c = false ∧ c ≠ ',' ∧ c ≠ '%' := by
  refine ⟨?_, ?_, ?_⟩
  · by_contra hs
    have := (isSpace_iff c).1 (by simpa using hs)
    simp at this
    rcases this with h1 | h1 | h1 | h1 | h1 | h1 <;> (subst h1; revert h; decide)
  · rintro rfl; revert h; decide
  · rintro rfl; revert h; decide

theorem literal_head (l : Literal) (hl : l.Ok) : ∃ c t, l.text = c :: t ∧ startsNumber c = true := by
  have hd : ∀ c : Char, c.isDigit → startsNumber c = true := by intro c hc; simp [startsNumber, hc]
  rw [text_eq]
  cases l.sign with
  | plus => exact ⟨'+', _, rfl, rfl⟩
  | minus => exact ⟨'-', _, rfl, rfl⟩
  | none =>
    cases hi : l.int with
    | cons c t => exact ⟨c, _, rfl, hd c (hl.int c (by rw [hi]; simp))⟩
    | nil =>
      obtain ⟨f, hf, _⟩ := hl.some_digit.resolve_left (fun h => h hi)
      rw [hf]
      exact ⟨'.', _, rfl, rfl⟩

theorem real_literal (a : List Char) (l : Literal) (r : List Char) (ha : Blank a) (hl : l.Ok) (hr : Stops r) :
    real (a ++ (l.text ++ r)) = some (.fin l.val, r) := by
  unfold real
  rw [skipWs_blank _ _ ha]
  obtain ⟨c, t, h1, h2⟩ := literal_head l hl
  rw [skipWs_head _ (by rw [h1]; intro d hd; simp at hd; subst hd; exact (startsNumber_not _ h2).1)]
  exact parseReal_literal l hl r hr

theorem blank_comma (a : List Char) (ha : Blank a) (b : List Char) : skipWs (a ++ ',' :: b) = ',' :: b := by
  rw [skipWs_blank _ _ ha]
  exact skipWs_head _ (by intro c hc; simp at hc; subst hc; decide)

theorem more_literal (sep : List Char) (l : Literal) (r : List Char) (hs : Separator sep) (hl : l.Ok) (hr : Stops r) :
    more (sep ++ (l.text ++ r)) = some (.fin l.val, r) := by
  obtain ⟨c, t, h1, h2⟩ := literal_head l hl
  obtain ⟨n1, n2, n3⟩ := startsNumber_not _ h2
  rcases hs with ⟨hb, _⟩ | ⟨a, b, ha, hb, rfl⟩
  · have hw : skipWs (sep ++ (l.text ++ r)) = l.text ++ r := by
      rw [skipWs_blank _ _ hb]
      exact skipWs_head _ (by rw [h1]; intro d hd; simp at hd; subst hd; exact n1)
    have hre := real_literal [] l r (by intro c hc; simp at hc) hl hr
    rw [List.nil_append] at hre
    unfold more
    rw [hw]
    split
    · rename_i r' heq
      rw [h1] at heq
      injection heq with e1 _
      exact absurd e1 n2
    · exact hre
  · unfold more
    rw [List.append_assoc, List.cons_append, blank_comma a ha]
    exact real_literal b l r hb hl hr

theorem separator_stops (sep r : List Char) (hs : Separator sep) : Stops (sep ++ r) := by
  have hsp : ∀ c : Char, c ∈ [' ', '\t', '\n', '\r', '\x0b', '\x0c'] → c.isDigit = false ∧ c ≠ '.' ∧ c ≠ 'e' ∧ c ≠ 'E' := by
    intro c hc
    simp at hc
    rcases hc with h | h | h | h | h | h <;> (subst h; decide)
  intro c hc
  rcases hs with ⟨hb, hne⟩ | ⟨a, b, ha, hb, rfl⟩
  · cases sep with
    | nil => exact absurd rfl hne
    | cons d sep => simp at hc; subst hc; exact hsp _ (hb _ (by simp))
  · cases a with
    | nil => simp at hc; subst hc; decide
    | cons d a => simp at hc; subst hc; exact hsp _ (ha _ (by simp))

theorem more_length (s : List Char) (x : Num) (r : List Char) (h : more s = some (x, r)) : r.length < s.length := by
  have hs := Visr.ChannelList.skipWs_length s
  unfold more at h
  split at h
  · rename_i t ht
    have := real_length _ _ _ h
    rw [ht] at hs
    simp at hs
    omega
  · have := real_length _ _ _ h
    omega

theorem items_some (s : List Char) (x : Num) (r : List Char) (h : more s = some (x, r)) :
    items s = (x :: (items r).1, (items r).2) := by
  rw [items, h]
  simp only
  rw [if_pos (more_length s x r h)]

theorem items_none (s : List Char) (h : more s = none) : items s = ([], s) := by
  rw [items, h]

theorem items_text (vs : List ℚ) (t : List Char) (h : Items vs t) (sep r : List Char) (hs : Separator sep)
    (hr : Stops r) (hm : more r = none) : items (sep ++ (t ++ r)) = (vs.map .fin, r) := by
  induction h generalizing sep with
  | one l hl =>
    rw [items_some _ _ _ (more_literal sep l r hs hl hr), items_none r hm]
    rfl
  | cons l sep' vs t hl hs' _ ih =>
    have h1 : Stops (sep' ++ (t ++ r)) := separator_stops _ _ hs'
    simp only [List.append_assoc]
    rw [items_some _ _ _ (more_literal sep l _ hs hl h1), ih sep' hs']
    rfl

theorem numbers_text (vs : List ℚ) (t : List Char) (h : Items vs t) (a r : List Char) (ha : Blank a)
    (hr : Stops r) (hm : more r = none) : numbers (a ++ (t ++ r)) = (vs.map .fin, r) := by
  unfold numbers
  cases h with
  | one l hl =>
    rw [real_literal a l r ha hl hr]
    simp only
    rw [items_none r hm]
    rfl
  | cons l sep vs t hl hs hi =>
    have h1 : Stops (sep ++ (t ++ r)) := separator_stops _ _ hs
    simp only [List.append_assoc]
    rw [real_literal a l _ ha hl h1]
    simp only
    rw [items_text vs t hi sep r hs hr hm]
    rfl

/-- What follows the numbers of a line. -/
theorem tail_spec (b c : List Char) (hb : Blank b) (hc : Comment c) :
    Stops (b ++ c) ∧ more (b ++ c) = none ∧ real (b ++ c) = none ∧ skipWs (b ++ c) = c := by
  have hw : skipWs (b ++ c) = c := by
    rw [skipWs_blank _ _ hb]
    refine skipWs_head _ fun d hd => ?_
    rcases hc with rfl | hc
    · simp at hd
    · rw [hc] at hd; simp at hd; subst hd; decide
  have hre : real (b ++ c) = none := by
    unfold real
    rw [hw]
    refine parseReal_none _ fun d hd => ?_
    rcases hc with rfl | hc
    · simp at hd
    · rw [hc] at hd; simp at hd; subst hd; decide
  have hrc : real c = none := by
    unfold real at hre ⊢
    rw [hw] at hre
    rw [show skipWs c = c by rw [← hw, skipWs_idem]]
    exact hre
  refine ⟨?_, ?_, hre, hw⟩
  · cases b with
    | nil =>
      intro d hd
      rcases hc with rfl | hc
      · simp at hd
      · rw [List.nil_append, hc] at hd; simp at hd; subst hd; decide
    | cons e b => exact separator_stops (e :: b) c (Or.inl ⟨hb, by simp⟩)
  · unfold more
    rw [hw]
    split
    · rename_i r
      rcases hc with hc | hc <;> simp at hc
    · exact hrc

theorem row_line (vs : List ℚ) (t : List Char) (h : Line vs t) : row t = .ok (vs.map .fin) := by
  cases h with
  | empty a c ha hc =>
    obtain ⟨_, _, h3, h4⟩ := tail_spec a c ha hc
    have hn : numbers (a ++ c) = ([], a ++ c) := by unfold numbers; rw [h3]
    unfold row
    rw [hn]
    simp only [h4]
    rcases hc with rfl | hc
    · rfl
    · cases c with
      | nil => rfl
      | cons d c => simp at hc; subst hc; rfl
  | items vs a t b c ha ht hb hc =>
    obtain ⟨h1, h2, h3, h4⟩ := tail_spec b c hb hc
    have hn := numbers_text vs t ht a (b ++ c) ha h1 h2
    simp only [List.append_assoc]
    unfold row
    rw [hn]
    simp only [h4]
    rcases hc with rfl | hc
    · rfl
    · cases c with
      | nil => rfl
      | cons d c => simp at hc; subst hc; rfl

/-! ### Lines of a text -/

/-- The lines of a matrix text. -/
def cut (s : List Char) : List (List Char) := (pieces '\n' s).flatMap (pieces ';')

theorem pieces_ne (sep : Char) (s : List Char) : pieces sep s ≠ [] := by
  cases s with
  | nil => simp [pieces]
  | cons c s =>
    rw [pieces]
    split
    · simp
    · split <;> simp

theorem cut_ne (s : List Char) : cut s ≠ [] := by
  unfold cut
  cases h : pieces '\n' s with
  | nil => exact absurd h (pieces_ne _ _)
  | cons p ps =>
    rw [List.flatMap_cons]
    intro hc
    exact pieces_ne ';' p (List.append_eq_nil_iff.1 hc).1

theorem cut_newline (s : List Char) : cut ('\n' :: s) = [] :: cut s := by
  unfold cut
  rw [pieces, if_pos rfl, List.flatMap_cons]
  rfl

theorem cut_semicolon (s : List Char) : cut (';' :: s) = [] :: cut s := by
  unfold cut
  rw [pieces, if_neg (by decide)]
  cases h : pieces '\n' s with
  | nil => exact absurd h (pieces_ne _ _)
  | cons p ps =>
    simp only [List.flatMap_cons]
    rw [pieces, if_pos rfl]
    rfl

theorem cut_other (c : Char) (s : List Char) (h1 : c ≠ '\n') (h2 : c ≠ ';') :
    ∃ p ps, cut s = p :: ps ∧ cut (c :: s) = (c :: p) :: ps := by
  unfold cut
  rw [pieces, if_neg h1]
  cases h : pieces '\n' s with
  | nil => exact absurd h (pieces_ne _ _)
  | cons q qs =>
    simp only [List.flatMap_cons]
    rw [pieces, if_neg h2]
    cases hq : pieces ';' q with
    | nil => exact absurd hq (pieces_ne _ _)
    | cons p ps => exact ⟨p, ps ++ qs.flatMap (pieces ';'), rfl, rfl⟩

theorem cut_last (t : List Char) (h1 : '\n' ∉ t) (h2 : ';' ∉ t) : cut t = [t] := by
  induction t with
  | nil => rfl
  | cons c t ih =>
    simp only [List.mem_cons, not_or] at h1 h2
    obtain ⟨p, ps, e1, e2⟩ := cut_other c t (Ne.symm h1.1) (Ne.symm h2.1)
    rw [ih h1.2 h2.2] at e1
    injection e1 with e3 e4
    rw [e2, ← e3, ← e4]

theorem cut_append (t : List Char) (h1 : '\n' ∉ t) (h2 : ';' ∉ t) (b : Char) (hb : b = '\n' ∨ b = ';')
    (r : List Char) : cut (t ++ b :: r) = t :: cut r := by
  induction t with
  | nil =>
    rcases hb with rfl | rfl
    · exact cut_newline r
    · exact cut_semicolon r
  | cons c t ih =>
    simp only [List.mem_cons, not_or] at h1 h2
    obtain ⟨p, ps, e1, e2⟩ := cut_other c (t ++ b :: r) (Ne.symm h1.1) (Ne.symm h2.1)
    rw [ih h1.2 h2.2] at e1
    injection e1 with e3 e4
    rw [List.cons_append, e2, ← e3, ← e4]

theorem rows_ok (ss : List (List Char)) (vs : List (List Num)) (h : List.Forall₂ (fun s v => row s = .ok v) ss vs) :
    rows ss = .ok vs := by
  induction h with
  | nil => rfl
  | cons h1 _ ih => rw [rows, h1]; simp only [ih]

theorem rows_sound (ss : List (List Char)) (vs : List (List Num)) (h : rows ss = .ok vs) :
    List.Forall₂ (fun s v => row s = .ok v) ss vs := by
  induction ss generalizing vs with
  | nil => cases h; exact .nil
  | cons s ss ih =>
    rw [rows] at h
    cases h1 : row s with
    | throw e => rw [h1] at h; cases h
    | ub => rw [h1] at h; cases h
    | ok v =>
      rw [h1] at h
      simp only at h
      cases h2 : rows ss with
      | throw e => rw [h2] at h; cases h
      | ub => rw [h2] at h; cases h
      | ok w =>
        rw [h2] at h
        injection h with h
        rw [← h]
        exact .cons h1 (ih w h2)

theorem cut_lines (vss : List (List ℚ)) (t : List Char) (h : Lines vss t) :
    List.Forall₂ (fun s v => row s = .ok v) (cut t) (vss.map (·.map .fin)) := by
  induction h with
  | last vs t hl h1 h2 =>
    rw [cut_last t h1 h2]
    exact .cons (row_line vs t hl) .nil
  | cons vs t b vss r hl h1 h2 hb _ ih =>
    rw [cut_append t h1 h2 b hb r]
    exact .cons (row_line vs t hl) ih

/-! ### What is accepted -/

theorem word_split (ws s r : List Char) (hw : ∀ c ∈ ws, c.toLower = c ∧ c.toUpper.toLower = c)
    (h : word ws s = some r) : ∃ w, s = w ++ r ∧ w.map Char.toLower = ws := by
  induction ws generalizing s with
  | nil => simp [word] at h; exact ⟨[], by rw [h]; rfl, rfl⟩
  | cons a ws ih =>
    cases s with
    | nil => simp [word] at h
    | cons c s =>
      simp only [word] at h
      split at h
      · rename_i hc
        obtain ⟨w, h1, h2⟩ := ih s (fun d hd => hw d (List.mem_cons_of_mem _ hd)) h
        refine ⟨c :: w, by rw [h1]; rfl, ?_⟩
        obtain ⟨q1, q2⟩ := hw a (by simp)
        rw [List.map_cons, h2]
        rcases hc with rfl | rfl
        · rw [q1]
        · rw [q2]
      · cases h

theorem dropWhile_split (p : Char → Bool) (s : List Char) : ∃ a, s = a ++ s.dropWhile p :=
  ⟨s.takeWhile p, (List.takeWhile_append_dropWhile).symm⟩

theorem dropWhile_head (s r : List Char) (c : Char) (h : s.dropWhile (· ≠ ')') = c :: r) : c = ')' := by
  induction s with
  | nil => simp at h
  | cons d s ih =>
    rw [List.dropWhile_cons] at h
    split at h
    · exact ih h
    · rename_i hd
      injection h with h1 _
      rw [← h1]
      simpa using hd

theorem special_number (sg : Sign) (s : List Char) (x : Num) (r : List Char)
    (h : special (sg.factor == -1) s = some (x, r)) : ∃ t, sg.text ++ s = t ++ r ∧ Number x t := by
  unfold special at h
  cases h1 : word "nan".toList s with
  | some q =>
    obtain ⟨w, e1, e2⟩ := word_split _ s q (by decide) h1
    rw [h1] at h
    simp only at h
    split at h
    · rename_i r'
      split at h
      · cases h
      · rename_i c r'' he
        have hc := dropWhile_head _ _ _ he
        subst hc
        obtain ⟨a, ha⟩ := dropWhile_split (· ≠ ')') r'
        rw [he] at ha
        injection h with h
        injection h with hx hr
        subst hx hr
        refine ⟨_, ?_, Number.nanOf sg w a e2⟩
        rw [e1, ha]
        simp
    · injection h with h
      injection h with hx hr
      subst hx hr
      exact ⟨_, by rw [e1, List.append_assoc], Number.nan sg w e2⟩
  | none =>
    rw [h1] at h
    simp only at h
    cases h2 : word "inf".toList s with
    | none => rw [h2] at h; cases h
    | some q =>
      obtain ⟨w, e1, e2⟩ := word_split _ s q (by decide) h2
      rw [h2] at h
      injection h with h
      injection h with hx hr
      subst hx
      cases h4 : word "inity".toList q with
      | none =>
        rw [h4] at hr
        simp at hr
        subst hr
        exact ⟨_, by rw [e1, List.append_assoc], Number.inf sg w (Or.inl e2)⟩
      | some t =>
        obtain ⟨w', e3, e4⟩ := word_split _ q t (by decide) h4
        rw [h4] at hr
        simp at hr
        subst hr
        refine ⟨_, ?_, Number.inf sg (w ++ w') (Or.inr ?_)⟩
        · rw [e1, e3]; simp
        · rw [List.map_append, e2, e4]; rfl

theorem parseReal_number (s : List Char) (x : Num) (r : List Char) (h : parseReal s = some (x, r)) :
    ∃ t, s = t ++ r ∧ Number x t := by
  rcases parseReal_sound s x r h with ⟨l, hl, hs, hx⟩ | ⟨_, _, sg, b, hs, hb⟩
  · subst hx
    exact ⟨l.text, hs, .literal l hl⟩
  · rw [hs]
    exact special_number sg b x r hb

theorem real_number (s : List Char) (x : Num) (r : List Char) (h : real s = some (x, r)) :
    ∃ a t, Blank a ∧ s = a ++ t ++ r ∧ Number x t := by
  obtain ⟨t, h1, h2⟩ := parseReal_number _ _ _ h
  obtain ⟨a, ha, h3⟩ := skipWs_split s
  exact ⟨a, t, ha, by rw [List.append_assoc, ← h1, ← h3], h2⟩

theorem more_number (s : List Char) (x : Num) (r : List Char) (h : more s = some (x, r)) :
    ∃ sep t, Joint sep ∧ s = sep ++ t ++ r ∧ Number x t := by
  obtain ⟨a, ha, h3⟩ := skipWs_split s
  unfold more at h
  split at h
  · rename_i r' hr'
    obtain ⟨b, t, hb, h1, h2⟩ := real_number _ _ _ h
    refine ⟨a ++ ',' :: b, t, Or.inr (Or.inr ⟨a, b, ha, hb, rfl⟩), ?_, h2⟩
    rw [h3, hr', h1]
    simp
  · unfold real at h
    rw [skipWs_idem] at h
    obtain ⟨t, h1, h2⟩ := parseReal_number _ _ _ h
    refine ⟨a, t, ?_, by rw [List.append_assoc, ← h1, ← h3], h2⟩
    by_cases hne : a = []
    · exact Or.inl hne
    · exact Or.inr (Or.inl ⟨ha, hne⟩)

theorem items_sound (n : Nat) (s : List Char) (hn : s.length ≤ n) :
    ((items s).1 = [] ∧ (items s).2 = s) ∨
      ∃ sep t, Joint sep ∧ s = sep ++ t ++ (items s).2 ∧ Accepted (items s).1 t := by
  induction n generalizing s with
  | zero =>
    have : s = [] := List.length_eq_zero_iff.1 (by omega)
    subst this
    left
    rw [items_none [] rfl]
    exact ⟨rfl, rfl⟩
  | succ n ih =>
    cases h : more s with
    | none => rw [items_none s h]; exact Or.inl ⟨rfl, rfl⟩
    | some y =>
      obtain ⟨x, r⟩ := y
      rw [items_some s x r h]
      obtain ⟨sep, t, h1, h2, h3⟩ := more_number s x r h
      have hl := more_length s x r h
      right
      rcases ih r (by omega) with ⟨e1, e2⟩ | ⟨sep', t', g1, g2, g3⟩
      · exact ⟨sep, t, h1, by rw [e2]; exact h2, by rw [e1]; exact .one x t h3⟩
      · refine ⟨sep, t ++ sep' ++ t', h1, ?_, .cons x t sep' _ t' h3 g1 g3⟩
        simp only [List.append_assoc] at g2 h2 ⊢
        rw [← g2]
        exact h2

theorem numbers_sound (s : List Char) :
    ((numbers s).1 = [] ∧ (numbers s).2 = s) ∨
      ∃ a t, Blank a ∧ s = a ++ t ++ (numbers s).2 ∧ Accepted (numbers s).1 t := by
  unfold numbers
  cases h : real s with
  | none => exact Or.inl ⟨rfl, rfl⟩
  | some y =>
    obtain ⟨x, r⟩ := y
    obtain ⟨a, t, h1, h2, h3⟩ := real_number s x r h
    right
    simp only
    rcases items_sound r.length r le_rfl with ⟨e1, e2⟩ | ⟨sep', t', g1, g2, g3⟩
    · exact ⟨a, t, h1, by rw [e2]; exact h2, by rw [e1]; exact .one x t h3⟩
    · refine ⟨a, t ++ sep' ++ t', h1, ?_, .cons x t sep' _ t' h3 g1 g3⟩
      simp only [List.append_assoc] at g2 h2 ⊢
      rw [← g2]
      exact h2

theorem row_sound (s : List Char) (vs : List Num) (h : row s = .ok vs) : AcceptedLine vs s := by
  obtain ⟨b, hb, hs⟩ := skipWs_split (numbers s).2
  have key : Comment (skipWs (numbers s).2) → (numbers s).1 = vs → AcceptedLine vs s := by
    intro hc hv
    rcases numbers_sound s with ⟨e1, e2⟩ | ⟨a, t, h1, h2, h3⟩
    · rw [← hv, e1]
      rw [e2] at hs hc
      rw [hs]
      exact .empty b _ hb hc
    · rw [hv] at h3
      rw [h2, hs, ← List.append_assoc]
      exact .items vs a t b _ h1 h3 hb hc
  unfold row at h
  split at h
  · rename_i h0
    injection h with h
    exact key (by rw [h0]; exact Or.inl rfl) h
  · rename_i r h0
    injection h with h
    exact key (by rw [h0]; exact Or.inr rfl) h
  · cases h

theorem cut_sound (s : List Char) (vss : List (List Num))
    (h : List.Forall₂ (fun s v => row s = .ok v) (cut s) vss) : AcceptedLines vss s := by
  -- every text is put together from its lines
  have key : ∀ (s : List Char) (ps : List (List Char)), cut s = ps →
      (∃ t, ps = [t] ∧ s = t ∧ '\n' ∉ t ∧ ';' ∉ t) ∨
        ∃ t b r, (b = '\n' ∨ b = ';') ∧ s = t ++ b :: r ∧ ps = t :: cut r ∧ '\n' ∉ t ∧ ';' ∉ t := by
    intro s
    induction s with
    | nil => intro ps hp; left; exact ⟨[], hp.symm, rfl, by simp, by simp⟩
    | cons c s ih =>
      intro ps hp
      by_cases h1 : c = '\n'
      · subst h1
        right
        exact ⟨[], '\n', s, Or.inl rfl, rfl, by rw [← hp, cut_newline], by simp, by simp⟩
      · by_cases h2 : c = ';'
        · subst h2
          right
          exact ⟨[], ';', s, Or.inr rfl, rfl, by rw [← hp, cut_semicolon], by simp, by simp⟩
        · obtain ⟨q, qs, e1, e2⟩ := cut_other c s h1 h2
          rcases ih _ e1 with ⟨t, g1, g2, g3, g4⟩ | ⟨t, b, r, g0, g1, g2, g3, g4⟩
          · left
            injection g1 with f1 f2
            refine ⟨c :: t, by rw [← hp, e2, f1, f2], by rw [g2], ?_, ?_⟩
            · simp only [List.mem_cons, not_or]; exact ⟨Ne.symm h1, g3⟩
            · simp only [List.mem_cons, not_or]; exact ⟨Ne.symm h2, g4⟩
          · right
            injection g2 with f1 f2
            refine ⟨c :: t, b, r, g0, by rw [g1]; rfl, by rw [← hp, e2, f1, f2], ?_, ?_⟩
            · simp only [List.mem_cons, not_or]; exact ⟨Ne.symm h1, g3⟩
            · simp only [List.mem_cons, not_or]; exact ⟨Ne.symm h2, g4⟩
  generalize hn : s.length = n
  induction n using Nat.strong_induction_on generalizing s vss with
  | _ n ih =>
    rcases key s _ rfl with ⟨t, g1, g2, g3, g4⟩ | ⟨t, b, r, g0, g1, g2, g3, g4⟩
    · rw [g1] at h
      cases h with
      | cons h1 h2 =>
        cases h2
        rw [g2]
        exact .last _ t (row_sound _ _ h1) g3 g4
    · rw [g2] at h
      cases h with
      | cons h1 h2 =>
        rw [g1]
        refine .cons _ t b _ r (row_sound _ _ h1) g3 g4 g0 ?_
        refine ih r.length ?_ r _ h2 rfl
        rw [← hn, g1]
        simp
        omega

end Visr.MatrixText
