import Verif.FloatSequence.Spec
import Verif.MatrixText.Lemmas

/-!
# Sequences of numbers and ranges read from text: lemmas
-/

namespace Visr.FloatSequence

open Visr.ChannelList (isSpace skipWs)
open Visr.RealText
open Visr.MatrixText

/-! ### Ranges -/

theorem up_progression (v i e : ℚ) (hi : 0 < i) : Progression v i e (up v i e) := by
  intro k
  induction k generalizing v with
  | zero =>
    rw [up]
    by_cases h : v ≤ e
    · simp [hi, h]
    · simp [hi, h, not_lt.2 hi.le]
  | succ k ih =>
    rw [up]
    by_cases h : v ≤ e
    · rw [dif_pos ⟨hi, h⟩, List.getElem?_cons_succ, ih]
      push_cast
      rw [show v + i + (k : ℚ) * i = v + ((k : ℚ) + 1) * i by ring]
    · rw [dif_neg (fun hc => h hc.2), if_neg]
      · simp
      · rintro (⟨_, h2⟩ | ⟨h2, _⟩)
        · push_cast at h2
          have : 0 ≤ ((k : ℚ) + 1) * i := mul_nonneg (by positivity) hi.le
          linarith [not_le.1 h]
        · linarith

theorem down_progression (v i e : ℚ) (hi : i < 0) : Progression v i e (down v i e) := by
  intro k
  induction k generalizing v with
  | zero =>
    rw [down]
    by_cases h : e ≤ v
    · simp [hi, h]
    · simp [hi, h, not_lt.2 hi.le]
  | succ k ih =>
    rw [down]
    by_cases h : e ≤ v
    · rw [dif_pos ⟨hi, h⟩, List.getElem?_cons_succ, ih]
      push_cast
      rw [show v + i + (k : ℚ) * i = v + ((k : ℚ) + 1) * i by ring]
    · rw [dif_neg (fun hc => h hc.2), if_neg]
      · simp
      · rintro (⟨h2, _⟩ | ⟨_, h2⟩)
        · linarith
        · push_cast at h2
          have : ((k : ℚ) + 1) * i ≤ 0 := mul_nonpos_of_nonneg_of_nonpos (by positivity) hi.le
          linarith [not_le.1 h]

theorem progression_unique (v i e : ℚ) (L M : List ℚ) (h1 : Progression v i e L) (h2 : Progression v i e M) : L = M :=
  List.ext_getElem? fun k => by rw [h1 k, h2 k]

theorem range_finite (v i e : ℚ) (hi : i ≠ 0) (L : List ℚ) (h : Progression v i e L) :
    range (.fin v) (.fin i) (.fin e) = .ok (L.map .fin) := by
  unfold range
  by_cases hp : 0 < i
  · simp only [if_pos hp]
    rw [progression_unique _ _ _ _ _ h (up_progression v i e hp)]
  · simp only [if_neg hp]
    have hn : i < 0 := lt_of_le_of_ne (not_lt.1 hp) hi
    rw [progression_unique _ _ _ _ _ h (down_progression v i e hn)]

theorem finish_denotes (eps : ℚ) (heps : 0 < eps) (g L : List ℚ) (h : Denotes eps g L) :
    finish eps (g.map .fin) = .ok (L.map .fin) := by
  match g, h with
  | [v], h => simp only [Denotes] at h; subst h; rfl
  | [a, b], h => exact range_finite a 1 b one_ne_zero L h
  | [a, i, b], h =>
    obtain ⟨h1, h2⟩ := h
    have h0 : i ≠ 0 := by
      rintro rfl
      rw [abs_zero] at h1
      linarith
    have ht : tiny eps (.fin i) = false := by simp [tiny, h1]
    simp only [List.map_cons, List.map_nil, finish, ht, Bool.false_eq_true, if_false]
    exact range_finite a i b h0 L h2

theorem denotes_exists (eps : ℚ) (heps : 0 < eps) (g : List ℚ) (h0 : g ≠ []) (h3 : g.length ≤ 3)
    (hi : ∀ a i b, g = [a, i, b] → eps ≤ |i|) : ∃ L, Denotes eps g L := by
  match g, h0, h3, hi with
  | [v], _, _, _ => exact ⟨[v], rfl⟩
  | [a, b], _, _, _ => exact ⟨_, up_progression a 1 b one_pos⟩
  | [a, i, b], _, _, hi =>
    have h := hi a i b rfl
    rcases lt_trichotomy i 0 with h1 | h1 | h1
    · exact ⟨_, h, down_progression a i b h1⟩
    · subst h1; rw [abs_zero] at h; linarith
    · exact ⟨_, h, up_progression a i b h1⟩
  | _ :: _ :: _ :: _ :: _, _, h3, _ => simp at h3

/-! ### Reading -/

theorem colons_some (s : List Char) (r : List Char) (x : Num) (r' : List Char) (h : skipWs s = ':' :: r)
    (h2 : real r = some (x, r')) : colons s = (x :: (colons r').1, (colons r').2) ∧ r'.length < s.length := by
  have hl := real_length _ _ _ h2
  have hs := Visr.ChannelList.skipWs_length s
  rw [h] at hs
  simp at hs
  have : r'.length < s.length := by omega
  refine ⟨?_, this⟩
  rw [colons, h]
  simp only [h2]
  rw [if_pos this]

theorem colons_stop (s : List Char) (h : ∀ r, skipWs s ≠ ':' :: r) : colons s = ([], s) := by
  rw [colons]
  split
  · rename_i r hr
    exact absurd hr (h r)
  · rfl

theorem blank_stop (a : List Char) (ha : Blank a) (c : Char) (hc : c.isDigit = false ∧ c ≠ '.' ∧ c ≠ 'e' ∧ c ≠ 'E')
    (r : List Char) : Stops (a ++ c :: r) := by
  cases a with
  | nil => intro d hd; simp at hd; subst hd; exact hc
  | cons e a => exact separator_stops (e :: a) _ (Or.inl ⟨ha, by simp⟩)

theorem blank_stop_nil (a : List Char) (ha : Blank a) : Stops a := by
  cases a with
  | nil => intro d hd; simp at hd
  | cons e a =>
    have := separator_stops (e :: a) [] (Or.inl ⟨ha, by simp⟩)
    simpa using this

theorem skipWs_char (a : List Char) (ha : Blank a) (c : Char) (hc : isSpace c = false) (r : List Char) :
    skipWs (a ++ c :: r) = c :: r := by
  rw [skipWs_blank _ _ ha]
  exact skipWs_head _ (by intro d hd; simp at hd; subst hd; exact hc)

theorem colons_text (vs : List ℚ) (t : List Char) (h : Entry vs t) (a b r : List Char) (ha : Blank a) (hb : Blank b)
    (hr : Stops r) (hc : ∀ r', skipWs r ≠ ':' :: r') : colons (a ++ ':' :: (b ++ (t ++ r))) = (vs.map .fin, r) := by
  induction h generalizing a b with
  | one l hl =>
    rw [(colons_some _ _ _ _ (skipWs_char a ha ':' (by decide) _) (real_literal b l r hb hl hr)).1, colons_stop r hc]
    rfl
  | cons l a' b' vs t hl ha' hb' _ ih =>
    have h1 : Stops (a' ++ ':' :: (b' ++ (t ++ r))) := blank_stop a' ha' ':' (by decide) _
    simp only [List.append_assoc, List.cons_append]
    rw [(colons_some _ _ _ _ (skipWs_char a ha ':' (by decide) _) (real_literal b l _ hb hl h1)).1, ih a' b' ha' hb']
    rfl

theorem group_text (vs : List ℚ) (t : List Char) (h : Entry vs t) (a r : List Char) (ha : Blank a)
    (hr : Stops r) (hc : ∀ r', skipWs r ≠ ':' :: r') : group (a ++ (t ++ r)) = some (vs.map .fin, r) := by
  unfold group
  cases h with
  | one l hl =>
    rw [real_literal a l r ha hl hr]
    simp only
    rw [colons_stop r hc]
    rfl
  | cons l a' b' vs t hl ha' hb' hi =>
    have h1 : Stops (a' ++ ':' :: (b' ++ (t ++ r))) := blank_stop a' ha' ':' (by decide) _
    simp only [List.append_assoc, List.cons_append]
    rw [real_literal a l _ ha hl h1]
    simp only
    rw [colons_text vs t hi a' b' r ha' hb' hr hc]
    rfl

theorem colons_length (n : Nat) (s : List Char) (hn : s.length ≤ n) : (colons s).2.length ≤ s.length := by
  induction n generalizing s with
  | zero =>
    have : s = [] := List.length_eq_zero_iff.1 (by omega)
    subst this
    rw [colons_stop [] (by intro r h; cases h)]
  | succ n ih =>
    by_cases h : ∃ r, skipWs s = ':' :: r
    · obtain ⟨r, h⟩ := h
      cases h2 : real r with
      | none => rw [colons, h]; simp only [h2]; exact le_rfl
      | some y =>
        obtain ⟨x, r'⟩ := y
        obtain ⟨e, hl⟩ := colons_some s r x r' h h2
        rw [e]
        have := ih r' (by omega)
        simp only
        omega
    · rw [colons_stop s (fun r hr => h ⟨r, hr⟩)]

theorem group_length (s : List Char) (g : List Num) (r : List Char) (h : group s = some (g, r)) : r.length < s.length := by
  unfold group at h
  cases h1 : real s with
  | none => rw [h1] at h; cases h
  | some y =>
    obtain ⟨x, q⟩ := y
    rw [h1] at h
    injection h with h
    injection h with _ h2
    have := real_length _ _ _ h1
    have := colons_length _ q le_rfl
    rw [← h2]
    omega

theorem groups_next (eps : ℚ) (s r : List Char) (g : List Num) (r' : List Char) (v : List Num)
    (h : skipWs s = ',' :: r) (h2 : group r = some (g, r')) (h3 : finish eps g = .ok v) :
    groups eps s = (match groups eps r' with
      | .throw e => .throw e
      | .ub => .ub
      | .ok y => .ok (v ++ y.1, y.2)) ∧ r'.length < s.length := by
  have hl := group_length _ _ _ h2
  have hs := Visr.ChannelList.skipWs_length s
  rw [h] at hs
  simp at hs
  have hlt : r'.length < s.length := by omega
  refine ⟨?_, hlt⟩
  rw [groups, h]
  simp only [h2, h3]
  rw [if_pos hlt]
  cases groups eps r' <;> rfl

theorem groups_fail (eps : ℚ) (s r : List Char) (g : List Num) (r' : List Char) (e : Exn)
    (h : skipWs s = ',' :: r) (h2 : group r = some (g, r')) (h3 : finish eps g = .throw e) :
    groups eps s = .throw e := by
  rw [groups, h]
  simp only [h2, h3]

theorem groups_stop (eps : ℚ) (s : List Char) (h : ∀ r, skipWs s ≠ ',' :: r) : groups eps s = .ok ([], s) := by
  rw [groups]
  split
  · rename_i r hr
    exact absurd hr (h r)
  · rfl

theorem skipWs_blank_nil (b : List Char) (hb : Blank b) : skipWs b = [] := by
  have := skipWs_blank b [] hb
  simpa [skipWs] using this

/-- Entries that can be finished one after the other. -/
theorem groups_text (eps : ℚ) (heps : 0 < eps) (vss : List (List ℚ)) (t : List Char) (h : Entries vss t)
    (Ls : List (List ℚ)) (hL : List.Forall₂ (Denotes eps) vss Ls) (b : List Char) (hb : Blank b) :
    ∃ y, groups eps (b ++ ',' :: t) = .ok y ∧ y.1 = Ls.flatten.map .fin ∧ skipWs y.2 = [] := by
  induction h generalizing Ls b with
  | one vs a t b' ha ht hb' =>
    cases hL with
    | cons h1 h2 =>
      cases h2
      have hg := group_text vs t ht a b' ha (blank_stop_nil b' hb') (by rw [skipWs_blank_nil b' hb']; simp)
      rw [← List.append_assoc] at hg
      rw [(groups_next eps _ _ _ _ _ (skipWs_char b hb ',' (by decide) _) hg (finish_denotes eps heps _ _ h1)).1,
        groups_stop eps b' (by rw [skipWs_blank_nil b' hb']; simp)]
      exact ⟨_, rfl, by simp, skipWs_blank_nil b' hb'⟩
  | cons vs a t b' vss r ha ht hb' _ ih =>
    cases hL with
    | cons h1 h2 =>
      have hg := group_text vs t ht a (b' ++ ',' :: r) ha (blank_stop b' hb' ',' (by decide) r)
        (by rw [skipWs_char b' hb' ',' (by decide)]; simp)
      obtain ⟨y, e1, e2, e3⟩ := ih _ h2 b' hb'
      have hass : a ++ t ++ b' ++ ',' :: r = a ++ (t ++ (b' ++ ',' :: r)) := by simp
      rw [hass, (groups_next eps _ _ _ _ _ (skipWs_char b hb ',' (by decide) _) hg (finish_denotes eps heps _ _ h1)).1, e1]
      exact ⟨_, rfl, by simp [e2], e3⟩

/-- Entries the last of which cannot be finished. -/
theorem groups_text_fail (eps : ℚ) (heps : 0 < eps) (good : List (List ℚ)) (bad : List ℚ) (rest : List (List ℚ))
    (e : Exn) (hf : finish eps (bad.map .fin) = .throw e) (t : List Char) (h : Entries (good ++ bad :: rest) t)
    (Ls : List (List ℚ)) (hL : List.Forall₂ (Denotes eps) good Ls) (b : List Char) (hb : Blank b) :
    groups eps (b ++ ',' :: t) = .throw e := by
  induction good generalizing t Ls b with
  | nil =>
    rw [List.nil_append] at h
    cases h with
    | one vs a t b' ha ht hb' =>
      have hg := group_text _ t ht a b' ha (blank_stop_nil b' hb') (by rw [skipWs_blank_nil b' hb']; simp)
      rw [← List.append_assoc] at hg
      exact groups_fail eps _ _ _ _ _ (skipWs_char b hb ',' (by decide) _) hg hf
    | cons vs a t b' vss r ha ht hb' _ =>
      have hg := group_text _ t ht a (b' ++ ',' :: r) ha (blank_stop b' hb' ',' (by decide) r)
        (by rw [skipWs_char b' hb' ',' (by decide)]; simp)
      have hass : a ++ t ++ b' ++ ',' :: r = a ++ (t ++ (b' ++ ',' :: r)) := by simp
      rw [hass]
      exact groups_fail eps _ _ _ _ _ (skipWs_char b hb ',' (by decide) _) hg hf
  | cons g good ih =>
    rw [List.cons_append] at h
    cases hL with
    | cons h1 h2 =>
      generalize hxs : good ++ bad :: rest = xs at h
      cases h with
      | one vs a t b' ha ht hb' => simp at hxs
      | cons vs a t b' vss r ha ht hb' hr =>
        subst hxs
        have hg := group_text _ t ht a (b' ++ ',' :: r) ha (blank_stop b' hb' ',' (by decide) r)
          (by rw [skipWs_char b' hb' ',' (by decide)]; simp)
        have hass : a ++ t ++ b' ++ ',' :: r = a ++ (t ++ (b' ++ ',' :: r)) := by simp
        rw [hass, (groups_next eps _ _ _ _ _ (skipWs_char b hb ',' (by decide) _) hg (finish_denotes eps heps _ _ h1)).1,
          ih r hr _ h2 b' hb']

/-- The constructor does what the loop over the further groups does for a text with a leading comma. -/
theorem parse_eq (eps : ℚ) (s : List Char) (g : List Num) (r : List Char) (h : group s = some (g, r)) :
    parse eps s = (match groups eps (',' :: s) with
      | .throw e => .throw e
      | .ub => .ub
      | .ok y => if skipWs y.2 = [] then .ok y.1 else .throw .invalidArgument) := by
  have hw : skipWs (',' :: s) = ',' :: s := skipWs_head _ (by intro d hd; simp at hd; subst hd; decide)
  unfold parse
  rw [h]
  simp only
  cases hf : finish eps g with
  | throw e => rw [groups_fail eps _ _ _ _ _ hw h hf]
  | ub =>
    have : groups eps (',' :: s) = .ub := by rw [groups, hw]; simp only [h, hf]
    rw [this]
  | ok v =>
    rw [(groups_next eps _ _ _ _ _ hw h hf).1]
    simp only
    cases groups eps r <;> rfl

theorem entries_group (vss : List (List ℚ)) (t : List Char) (h : Entries vss t) : ∃ g r, group t = some (g, r) := by
  cases h with
  | one vs a t b' ha ht hb' =>
    have hg := group_text _ t ht a b' ha (blank_stop_nil b' hb') (by rw [skipWs_blank_nil b' hb']; simp)
    rw [← List.append_assoc] at hg
    exact ⟨_, _, hg⟩
  | cons vs a t b' vss r ha ht hb' _ =>
    have hg := group_text _ t ht a (b' ++ ',' :: r) ha (blank_stop b' hb' ',' (by decide) r)
      (by rw [skipWs_char b' hb' ',' (by decide)]; simp)
    have hass : a ++ t ++ b' ++ ',' :: r = a ++ (t ++ (b' ++ ',' :: r)) := by simp
    rw [hass]
    exact ⟨_, _, hg⟩

/-! ### What is accepted -/

theorem colons_sound (n : Nat) (s : List Char) (hn : s.length ≤ n) :
    ((colons s).1 = [] ∧ (colons s).2 = s) ∨
      ∃ a b t, Blank a ∧ Blank b ∧ s = a ++ ':' :: b ++ t ++ (colons s).2 ∧ AcceptedEntry (colons s).1 t := by
  induction n generalizing s with
  | zero =>
    have : s = [] := List.length_eq_zero_iff.1 (by omega)
    subst this
    left
    rw [colons_stop [] (by intro r h; cases h)]
    exact ⟨rfl, rfl⟩
  | succ n ih =>
    by_cases h : ∃ r, skipWs s = ':' :: r
    · obtain ⟨r, h⟩ := h
      cases h2 : real r with
      | none => left; rw [colons, h]; simp only [h2]; exact ⟨trivial, trivial⟩
      | some y =>
        obtain ⟨x, r'⟩ := y
        obtain ⟨e, hl⟩ := colons_some s r x r' h h2
        rw [e]
        obtain ⟨a, ha, hs⟩ := skipWs_split s
        obtain ⟨b, t, hb, hr, hx⟩ := real_number r x r' h2
        right
        rcases ih r' (by omega) with ⟨e1, e2⟩ | ⟨a', b', t', g1, g2, g3, g4⟩
        · refine ⟨a, b, t, ha, hb, ?_, by rw [e1]; exact .one x t hx⟩
          rw [e2, hs, h, hr]
          simp
        · refine ⟨a, b, t ++ a' ++ ':' :: b' ++ t', ha, hb, ?_, .cons x t a' b' _ t' hx g1 g2 g4⟩
          simp only [List.append_assoc, List.cons_append] at g3 hr ⊢
          rw [← g3, ← hr, ← h]
          exact hs
    · rw [colons_stop s (fun r hr => h ⟨r, hr⟩)]
      exact Or.inl ⟨rfl, rfl⟩

theorem group_sound (s : List Char) (g : List Num) (r : List Char) (h : group s = some (g, r)) :
    ∃ a t, Blank a ∧ s = a ++ t ++ r ∧ AcceptedEntry g t := by
  unfold group at h
  cases h1 : real s with
  | none => rw [h1] at h; cases h
  | some y =>
    obtain ⟨x, q⟩ := y
    rw [h1] at h
    injection h with h
    injection h with hg hr
    obtain ⟨a, t, ha, hs, hx⟩ := real_number s x q h1
    rcases colons_sound _ q le_rfl with ⟨e1, e2⟩ | ⟨a', b', t', g1, g2, g3, g4⟩
    · refine ⟨a, t, ha, ?_, by rw [← hg, e1]; exact .one x t hx⟩
      rw [← hr, e2]
      exact hs
    · refine ⟨a, t ++ a' ++ ':' :: b' ++ t', ha, ?_, by rw [← hg]; exact .cons x t a' b' _ t' hx g1 g2 g4⟩
      rw [← hr]
      simp only [List.append_assoc, List.cons_append] at g3 hs ⊢
      rw [← g3]
      exact hs

theorem range_means (v i e : Num) (L : List Num) (h : range v i e = .ok L) :
    (∃ a b c M, v = .fin a ∧ i = .fin b ∧ e = .fin c ∧ L = M.map .fin ∧ (b ≠ 0 → Progression a b c M)) ∨
      ((∃ x ∈ [v, i, e], ∀ q, x ≠ .fin q) ∧ (L = [] ∨ L = [v])) := by
  have hloop : ∀ (w : Num → Bool), loop w v i = .ok L → L = [] ∨ L = [v] := by
    intro w hw
    unfold loop at hw
    split at hw
    · split at hw
      · cases hw
      · cases hw; exact Or.inr rfl
    · cases hw; exact Or.inl rfl
  have hnf : (∃ x ∈ [v, i, e], ∀ q, x ≠ Num.fin q) →
      (if positive i then loop (fun x => le x e) v i else loop (fun x => le e x) v i) = .ok L →
      (∃ x ∈ [v, i, e], ∀ q, x ≠ Num.fin q) ∧ (L = [] ∨ L = [v]) := by
    intro h1 h2
    refine ⟨h1, ?_⟩
    split at h2
    · exact hloop _ h2
    · exact hloop _ h2
  cases v with
  | fin a =>
    cases i with
    | fin b =>
      cases e with
      | fin c =>
        left
        unfold range at h
        by_cases hp : 0 < b
        · simp only [if_pos hp] at h
          cases h
          exact ⟨a, b, c, _, rfl, rfl, rfl, rfl, fun _ => up_progression a b c hp⟩
        · simp only [if_neg hp] at h
          cases h
          exact ⟨a, b, c, _, rfl, rfl, rfl, rfl,
            fun h0 => down_progression a b c (lt_of_le_of_ne (not_lt.1 hp) h0)⟩
      | inf n => exact Or.inr (hnf ⟨.inf n, by simp, by intro q hq; cases hq⟩ h)
      | nan => exact Or.inr (hnf ⟨.nan, by simp, by intro q hq; cases hq⟩ h)
    | inf n => exact Or.inr (hnf ⟨.inf n, by simp, by intro q hq; cases hq⟩ h)
    | nan => exact Or.inr (hnf ⟨.nan, by simp, by intro q hq; cases hq⟩ h)
  | inf n => exact Or.inr (hnf ⟨.inf n, by simp, by intro q hq; cases hq⟩ h)
  | nan => exact Or.inr (hnf ⟨.nan, by simp, by intro q hq; cases hq⟩ h)

theorem finish_means (eps : ℚ) (heps : 0 < eps) (g L : List Num) (h : finish eps g = .ok L) : Means eps g L := by
  match g, h with
  | [x], h =>
    cases h
    cases x with
    | fin q => exact Or.inl ⟨[q], [q], rfl, rfl, rfl⟩
    | inf n => exact Or.inr ⟨⟨.inf n, by simp, by intro q hq; cases hq⟩, by simp, Or.inr ⟨_, rfl, rfl⟩⟩
    | nan => exact Or.inr ⟨⟨.nan, by simp, by intro q hq; cases hq⟩, by simp, Or.inr ⟨_, rfl, rfl⟩⟩
  | [a, b], h =>
    rcases range_means a (.fin 1) b L h with ⟨p, q, r, M, rfl, h1, rfl, rfl, h2⟩ | ⟨⟨x, hx, hq⟩, hL⟩
    · cases h1
      exact Or.inl ⟨[p, r], M, rfl, h2 one_ne_zero, rfl⟩
    · refine Or.inr ⟨⟨x, ?_, hq⟩, by simp, ?_⟩
      · simp only [List.mem_cons, List.not_mem_nil, or_false] at hx ⊢
        rcases hx with h | h | h
        · exact Or.inl h
        · exact absurd h (hq 1)
        · exact Or.inr h
      · exact hL.elim (fun h => Or.inl ⟨h, by simp⟩) fun h => Or.inr ⟨a, rfl, h⟩
  | [a, i, b], h =>
    simp only [finish] at h
    split at h
    · cases h
    · rename_i ht
      rcases range_means a i b L h with ⟨p, q, r, M, rfl, rfl, rfl, rfl, h2⟩ | ⟨hx, hL⟩
      · have h1 : eps ≤ |q| := by simpa [tiny] using ht
        have h0 : q ≠ 0 := by rintro rfl; rw [abs_zero] at h1; linarith
        exact Or.inl ⟨[p, q, r], M, rfl, ⟨h1, h2 h0⟩, rfl⟩
      · exact Or.inr ⟨hx, by simp, hL.elim (fun h => Or.inl ⟨h, by simp⟩) fun h => Or.inr ⟨a, rfl, h⟩⟩
  | [], h => cases h
  | _ :: _ :: _ :: _ :: _, h => cases h

theorem groups_sound (eps : ℚ) (heps : 0 < eps) (n : Nat) (s : List Char) (hn : s.length ≤ n) (y : List Num × List Char)
    (h : groups eps s = .ok y) (hend : skipWs y.2 = []) :
    (y.1 = [] ∧ y.2 = s) ∨ ∃ b t gs Ls, Blank b ∧ s = b ++ ',' :: t ∧ AcceptedEntries gs t ∧
      List.Forall₂ (Means eps) gs Ls ∧ y.1 = Ls.flatten := by
  induction n generalizing s y with
  | zero =>
    have : s = [] := List.length_eq_zero_iff.1 (by omega)
    subst this
    rw [groups_stop eps [] (by intro r h; cases h)] at h
    cases h
    exact Or.inl ⟨rfl, rfl⟩
  | succ n ih =>
    by_cases hc : ∃ r, skipWs s = ',' :: r
    · obtain ⟨r, hc⟩ := hc
      cases hg : group r with
      | none =>
        rw [groups, hc] at h
        simp only [hg] at h
        cases h
        exact Or.inl ⟨rfl, rfl⟩
      | some z =>
        obtain ⟨g, r'⟩ := z
        cases hf : finish eps g with
        | throw e => rw [groups_fail eps s r g r' e hc hg hf] at h; cases h
        | ub => rw [groups, hc] at h; simp only [hg, hf] at h; cases h
        | ok v =>
          obtain ⟨he, hl⟩ := groups_next eps s r g r' v hc hg hf
          rw [he] at h
          cases hn' : groups eps r' with
          | throw e => rw [hn'] at h; cases h
          | ub => rw [hn'] at h; cases h
          | ok w =>
            rw [hn'] at h
            cases h
            obtain ⟨b, hb, hs⟩ := skipWs_split s
            obtain ⟨a, t, ha, hr, ht⟩ := group_sound r g r' hg
            right
            rcases ih r' (by omega) w hn' hend with ⟨e1, e2⟩ | ⟨b', t', gs, Ls, q1, q2, q3, q4, q5⟩
            · rw [e2] at hend
              have hb' : Blank r' := by
                obtain ⟨b', hb', hr'⟩ := skipWs_split r'
                rw [hend, List.append_nil] at hr'
                rw [hr']; exact hb'
              refine ⟨b, r, [g], [v], hb, by rw [← hc]; exact hs, ?_, .cons (finish_means eps heps g v hf) .nil,
                by simp [e1]⟩
              rw [hr]
              exact .one g a t r' ha ht hb'
            · refine ⟨b, r, g :: gs, v :: Ls, hb, by rw [← hc]; exact hs, ?_,
                .cons (finish_means eps heps g v hf) q4, by simp [q5]⟩
              rw [hr, q2, ← List.append_assoc]
              exact .cons g a t b' gs t' ha ht q1 q3
    · rw [groups_stop eps s (fun r hr => hc ⟨r, hr⟩)] at h
      cases h
      exact Or.inl ⟨rfl, rfl⟩

end Visr.FloatSequence
