import Verif.RealText.Spec
import Mathlib.Data.List.Induction
import Mathlib.Tactic.Ring
import Mathlib.Tactic.FieldSimp
import Mathlib.Tactic.Push
import Mathlib.Tactic.NormNum

/-!
# The text of a number: the parser reads decimal numbers
-/

namespace Visr.RealText

open Visr.ChannelList (isSpace skipWs digitVal readSign)

theorem natOf_snoc (ds : List Char) (c : Char) : natOf (ds ++ [c]) = 10 * natOf ds + digitVal c := by
  unfold natOf
  simp

theorem numeral_snoc (ds : List Char) (c : Char) : numeral (ds ++ [c]) = 10 * numeral ds + (c.toNat - '0'.toNat) := by
  unfold numeral
  rw [List.map_append, List.reverse_append]
  simp [Nat.ofDigits_cons]
  omega

theorem natOf_eq (ds : List Char) : natOf ds = numeral ds := by
  induction ds using List.reverseRecOn with
  | nil => rfl
  | append_singleton ds c ih =>
    rw [natOf_snoc, numeral_snoc, ih]
    rfl

theorem natOf_append (ds fs : List Char) : natOf (ds ++ fs) = natOf ds * 10 ^ fs.length + natOf fs := by
  induction fs using List.reverseRecOn with
  | nil => simp [natOf]
  | append_singleton fs c ih =>
    rw [← List.append_assoc, natOf_snoc, ih, natOf_snoc, List.length_append, List.length_singleton, pow_succ]
    ring

theorem value_eq (neg : Bool) (ds fs : List Char) (e : ℤ) :
    value neg ds fs e
      = (if neg then -1 else 1) * ((numeral ds : ℚ) + (numeral fs : ℚ) / 10 ^ fs.length) * (10 : ℚ) ^ e := by
  unfold value
  rw [natOf_append, natOf_eq, natOf_eq]
  have h10 : (10 : ℚ) ≠ 0 := by norm_num
  have hq : ((numeral ds * 10 ^ fs.length + numeral fs : ℕ) : ℚ) * (10 : ℚ) ^ (e - (fs.length : ℤ))
      = ((numeral ds : ℚ) + (numeral fs : ℚ) / 10 ^ fs.length) * (10 : ℚ) ^ e := by
    rw [zpow_sub₀ h10, zpow_natCast]
    push_cast
    have : (10 : ℚ) ^ fs.length ≠ 0 := pow_ne_zero _ h10
    field_simp
  cases neg <;> simp only [hq, if_true, if_false, Bool.false_eq_true] <;> ring

theorem digits_append (ds r : List Char) (hd : ∀ c ∈ ds, c.isDigit) (hr : ∀ c ∈ r.head?, c.isDigit = false) :
    digits (ds ++ r) = ds ∧ afterDigits (ds ++ r) = r := by
  unfold digits afterDigits
  induction ds with
  | nil =>
    cases r with
    | nil => exact ⟨rfl, rfl⟩
    | cons c r =>
      have := hr c (by simp)
      simp [this]
  | cons d ds ih =>
    have h1 := hd d (by simp)
    obtain ⟨h2, h3⟩ := ih fun c hc => hd c (List.mem_cons_of_mem _ hc)
    simp [h1, h2, h3]

theorem digits_split (s : List Char) :
    s = digits s ++ afterDigits s ∧ (∀ c ∈ digits s, c.isDigit) := by
  refine ⟨(List.takeWhile_append_dropWhile).symm, ?_⟩
  intro c hc
  exact List.all_eq_true.1 List.all_takeWhile c hc

theorem readSign_text (sg : Sign) (r : List Char) (h : ∀ c ∈ r.head?, c ≠ '-' ∧ c ≠ '+') :
    (readSign (sg.text ++ r)).2 = r ∧
      (if (readSign (sg.text ++ r)).1 then (-1 : ℤ) else 1) = sg.factor := by
  cases sg with
  | none =>
    cases r with
    | nil => exact ⟨rfl, rfl⟩
    | cons c r =>
      obtain ⟨h1, h2⟩ := h c (by simp)
      simp [Sign.text, readSign, h1, h2, Sign.factor]
  | plus => simp [Sign.text, readSign, Sign.factor]
  | minus => simp [Sign.text, readSign, Sign.factor]

theorem readSign_split (s : List Char) :
    ∃ sg : Sign, s = sg.text ++ (readSign s).2 ∧ (if (readSign s).1 then (-1 : ℤ) else 1) = sg.factor := by
  cases s with
  | nil => exact ⟨.none, rfl, rfl⟩
  | cons c s =>
    by_cases h1 : c = '-'
    · subst h1; exact ⟨.minus, rfl, rfl⟩
    · by_cases h2 : c = '+'
      · subst h2; exact ⟨.plus, rfl, rfl⟩
      · refine ⟨.none, ?_, ?_⟩ <;> simp [readSign, h1, h2, Sign.text, Sign.factor]

theorem not_sign_of_digit (c : Char) (h : c.isDigit) : c ≠ '-' ∧ c ≠ '+' := by
  constructor <;> (rintro rfl; revert h; decide)

theorem head_digits (ds : List Char) (hd : ∀ c ∈ ds, c.isDigit) (hne : ds ≠ []) (r : List Char) :
    ∀ c ∈ (ds ++ r).head?, c ≠ '-' ∧ c ≠ '+' := by
  cases ds with
  | nil => exact absurd rfl hne
  | cons d ds =>
    intro c hc
    simp at hc
    subst hc
    exact not_sign_of_digit _ (hd _ (by simp))

/-- The text of an optional exponent. -/
def expText (e : Option (Char × Sign × List Char)) : List Char :=
  match e with | .none => [] | some x => x.1 :: x.2.1.text ++ x.2.2

/-- The power of ten of an optional exponent. -/
def expPower (e : Option (Char × Sign × List Char)) : ℤ :=
  match e with | .none => 0 | some x => x.2.1.factor * numeral x.2.2

/-- A correctly written exponent. -/
def ExpOk (e : Option (Char × Sign × List Char)) : Prop :=
  ∀ x, e = some x → (x.1 = 'e' ∨ x.1 = 'E') ∧ x.2.2 ≠ [] ∧ ∀ c ∈ x.2.2, c.isDigit

theorem withExponent_text (neg : Bool) (ds fs : List Char) (e : Option (Char × Sign × List Char)) (he : ExpOk e)
    (r : List Char) (hr : Stops r) :
    withExponent neg ds fs (expText e ++ r) = (.fin (value neg ds fs (expPower e)), r) := by
  cases e with
  | none =>
    simp only [expText, expPower, List.nil_append]
    unfold withExponent
    cases r with
    | nil => rfl
    | cons c r =>
      obtain ⟨_, _, h1, h2⟩ := hr c (by simp)
      simp [h1, h2]
  | some x =>
    obtain ⟨h1, h2, h3⟩ := he x rfl
    obtain ⟨c, sg, ds'⟩ := x
    simp only at h1 h2 h3
    simp only [expText, expPower, List.cons_append, List.append_assoc]
    have hh : ∀ c ∈ (ds' ++ r).head?, c ≠ '-' ∧ c ≠ '+' := head_digits ds' h3 h2 r
    obtain ⟨hs1, hs2⟩ := readSign_text sg (ds' ++ r) hh
    obtain ⟨hd1, hd2⟩ := digits_append ds' r h3 (fun c hc => (hr c hc).1)
    unfold withExponent
    simp only [hs1, hd1, hd2]
    rw [if_pos h1, if_neg h2]
    rw [natOf_eq]
    congr 3
    rw [← hs2]
    split <;> simp

theorem expText_head (e : Option (Char × Sign × List Char)) (he : ExpOk e) (r : List Char) (hr : Stops r) :
    ∀ c ∈ (expText e ++ r).head?, c.isDigit = false ∧ c ≠ '.' := by
  cases e with
  | none => intro c hc; exact ⟨(hr c hc).1, (hr c hc).2.1⟩
  | some x =>
    intro c hc
    simp [expText] at hc
    obtain ⟨h1, _⟩ := he x rfl
    subst hc
    rcases h1 with h1 | h1 <;> rw [h1] <;> decide

theorem word_none_of_head (w : Char) (ws : List Char) (s : List Char)
    (h : ∀ c ∈ s.head?, c ≠ w ∧ c ≠ w.toUpper) : word (w :: ws) s = none := by
  cases s with
  | nil => rfl
  | cons c s =>
    obtain ⟨h1, h2⟩ := h c (by simp)
    simp [word, h1, h2]

theorem special_dot (neg : Bool) (s : List Char) : special neg ('.' :: s) = none := by
  have h1 : word "nan".toList ('.' :: s) = none := word_none_of_head _ _ _ (by intro c hc; simp at hc; subst hc; decide)
  have h2 : word "inf".toList ('.' :: s) = none := word_none_of_head _ _ _ (by intro c hc; simp at hc; subst hc; decide)
  unfold special
  rw [h1, h2]

theorem text_eq (l : Literal) :
    l.text = l.sign.text ++ (l.int ++ ((match l.frac with | .none => [] | some f => '.' :: f) ++ expText l.exp)) := by
  unfold Literal.text expText
  simp only [List.append_assoc]
  cases l.frac <;> cases l.exp <;> rfl

/-- A decimal number is read completely, with its value. -/
theorem parseReal_literal (l : Literal) (hl : l.Ok) (r : List Char) (hr : Stops r) :
    parseReal (l.text ++ r) = some (.fin l.val, r) := by
  have hexp : ExpOk l.exp := hl.exp
  have heh := expText_head l.exp hexp r hr
  have hpow : l.power = expPower l.exp := rfl
  rw [text_eq]
  simp only [List.append_assoc]
  -- the sign
  set body := l.int ++ ((match l.frac with | .none => [] | some f => '.' :: f) ++ (expText l.exp ++ r)) with hbody
  have hhead : ∀ c ∈ body.head?, c ≠ '-' ∧ c ≠ '+' := by
    rw [hbody]
    by_cases hi : l.int = []
    · rcases hl.some_digit with h | ⟨f, hf, hne⟩
      · exact absurd hi h
      · rw [hi, hf]
        intro c hc
        simp at hc
        subst hc
        decide
    · exact head_digits l.int hl.int hi _
  obtain ⟨hs1, hs2⟩ := readSign_text l.sign body hhead
  have hval : ∀ fs, (fs = (match l.frac with | .none => [] | some f => f)) →
      value (readSign (l.sign.text ++ body)).1 l.int fs (expPower l.exp) = l.val := by
    intro fs hfs
    rw [value_eq]
    unfold Literal.val
    rw [hpow, ← hs2]
    subst hfs
    cases l.frac with
    | none => cases (readSign (l.sign.text ++ body)).1 <;> simp [numeral]
    | some f => cases (readSign (l.sign.text ++ body)).1 <;> simp
  unfold parseReal
  simp only [hs1]
  by_cases hi : l.int = []
  · obtain ⟨f, hf, hne⟩ := hl.some_digit.resolve_left (fun h => h hi)
    have hb : body = '.' :: (f ++ (expText l.exp ++ r)) := by rw [hbody, hi, hf]; rfl
    have hd : digits body = [] := by rw [hb]; rfl
    rw [if_pos hd]
    have h2 := hval f (by rw [hf])
    obtain ⟨e1, e2⟩ := digits_append f (expText l.exp ++ r) (hl.frac f hf) (fun c hc => (heh c hc).1)
    have hsp : special (readSign (l.sign.text ++ body)).1 body = none := by rw [hb]; exact special_dot _ _
    rw [hsp]
    rw [hi] at h2
    generalize (readSign (l.sign.text ++ body)).1 = neg at h2 ⊢
    rw [hb]
    simp only
    rw [e1, e2, if_neg hne, withExponent_text _ _ _ _ hexp r hr, h2]
  · have hbd : ∀ c ∈ (((match l.frac with | .none => [] | some f => '.' :: f) ++ (expText l.exp ++ r)) :
        List Char).head?, c.isDigit = false := by
      intro c hc
      cases hf : l.frac with
      | none => rw [hf] at hc; exact (heh c hc).1
      | some f => rw [hf] at hc; simp at hc; subst hc; decide
    obtain ⟨d1, d2⟩ := digits_append l.int _ hl.int hbd
    rw [← hbody] at d1 d2
    rw [d1, if_neg hi, d2]
    cases hf : l.frac with
    | none =>
      have h2 := hval [] (by rw [hf])
      simp only [List.nil_append]
      have hw := withExponent_text (readSign (l.sign.text ++ body)).1 l.int [] l.exp hexp r hr
      rw [h2] at hw
      generalize hX : expText l.exp ++ r = X at hw heh ⊢
      split
      · rename_i r' hr'
        exact absurd rfl (heh '.' (by simp)).2
      · rw [hw]
    | some f =>
      have h2 := hval f (by rw [hf])
      obtain ⟨e1, e2⟩ := digits_append f (expText l.exp ++ r) (hl.frac f hf) (fun c hc => (heh c hc).1)
      simp only [List.cons_append]
      rw [e1, e2, withExponent_text _ _ _ _ hexp r hr, h2]

/-! ### What is read is a number -/

theorem withExponent_split (neg : Bool) (ds fs s : List Char) :
    ∃ e, ExpOk e ∧ s = expText e ++ (withExponent neg ds fs s).2 ∧
      (withExponent neg ds fs s).1 = .fin (value neg ds fs (expPower e)) := by
  have none_case : ∃ e, ExpOk e ∧ s = expText e ++ s ∧
      (Num.fin (value neg ds fs 0)) = .fin (value neg ds fs (expPower e)) :=
    ⟨none, (by intro x hx; cases hx), rfl, rfl⟩
  unfold withExponent
  cases s with
  | nil => exact none_case
  | cons c r =>
    simp only
    by_cases hc : c = 'e' ∨ c = 'E'
    · rw [if_pos hc]
      by_cases hd : digits (readSign r).2 = []
      · rw [if_pos hd]; exact none_case
      · rw [if_neg hd]
        obtain ⟨sg, h1, h2⟩ := readSign_split r
        obtain ⟨h3, h4⟩ := digits_split (readSign r).2
        refine ⟨some (c, sg, digits (readSign r).2), ?_, ?_, ?_⟩
        · intro x hx
          cases hx
          exact ⟨hc, hd, h4⟩
        · simp only [expText, List.cons_append, List.append_assoc]
          rw [← h3, ← h1]
        · simp only [expPower]
          congr 2
          rw [← h2, natOf_eq]
          split <;> simp
    · rw [if_neg hc]; exact none_case

theorem val_eq (sg : Sign) (neg : Bool) (ds fs : List Char) (fo : Option (List Char))
    (e : Option (Char × Sign × List Char)) (h : (if neg then (-1 : ℤ) else 1) = sg.factor)
    (hf : fs = (match fo with | .none => [] | some f => f)) :
    value neg ds fs (expPower e) = (⟨sg, ds, fo, e⟩ : Literal).val := by
  have hp : (⟨sg, ds, fo, e⟩ : Literal).power = expPower e := rfl
  rw [value_eq]
  unfold Literal.val
  rw [hp]
  simp only [← h]
  subst hf
  cases fo with
  | none => cases neg <;> simp [numeral]
  | some f => cases neg <;> simp

theorem word_length (w s r : List Char) (h : word w s = some r) : r.length + w.length = s.length := by
  induction w generalizing s with
  | nil => simp [word] at h; rw [h]; simp
  | cons a w ih =>
    cases s with
    | nil => simp [word] at h
    | cons c s =>
      simp only [word] at h
      split at h
      · have := ih s h
        simp; omega
      · cases h

theorem dropWhile_length (p : Char → Bool) (s : List Char) : (s.dropWhile p).length ≤ s.length := by
  induction s with
  | nil => simp
  | cons c s ih =>
    rw [List.dropWhile_cons]
    split
    · simp; omega
    · simp

theorem special_length (neg : Bool) (s : List Char) (x : Num) (r : List Char) (h : special neg s = some (x, r)) :
    r.length < s.length ∧ (x = .nan ∨ x = .inf neg) := by
  unfold special at h
  cases h1 : word "nan".toList s with
  | some q =>
    have hl := word_length _ _ _ h1
    rw [h1] at h
    simp only at h
    have h3 : ("nan".toList).length = 3 := rfl
    split at h
    · rename_i r' 
      have hd := dropWhile_length (· ≠ ')') r'
      split at h
      · cases h
      · rename_i a r'' he
        rw [he] at hd
        injection h with h
        injection h with ha hb
        subst hb
        simp at hd hl
        exact ⟨by omega, Or.inl ha.symm⟩
    · injection h with h
      injection h with ha hb
      subst hb
      exact ⟨by omega, Or.inl ha.symm⟩
  | none =>
    rw [h1] at h
    simp only at h
    cases h2 : word "inf".toList s with
    | none => rw [h2] at h; cases h
    | some q =>
      have hl := word_length _ _ _ h2
      have h3 : ("inf".toList).length = 3 := rfl
      rw [h2] at h
      injection h with h
      injection h with ha hb
      refine ⟨?_, Or.inr ha.symm⟩
      cases h4 : word "inity".toList q with
      | none => rw [h4] at hb; simp at hb; subst hb; omega
      | some t =>
        have hl' := word_length _ _ _ h4
        rw [h4] at hb
        simp at hb
        subst hb
        omega

theorem special_none_text (neg : Bool) (s : List Char) (x : Num) (r : List Char) (h : special neg s = some (x, r)) :
    ∀ c ∈ s.head?, c = 'n' ∨ c = 'N' ∨ c = 'i' ∨ c = 'I' := by
  cases s with
  | nil => intro c hc; simp at hc
  | cons d s =>
    intro c hc
    simp at hc
    subst hc
    by_contra hcon
    push Not at hcon
    obtain ⟨h1, h2, h3, h4⟩ := hcon
    have w1 : word "nan".toList (d :: s) = none :=
      word_none_of_head _ _ _ (by intro c hc; simp at hc; subst hc; exact ⟨h1, h2⟩)
    have w2 : word "inf".toList (d :: s) = none :=
      word_none_of_head _ _ _ (by intro c hc; simp at hc; subst hc; exact ⟨h3, h4⟩)
    unfold special at h
    rw [w1, w2] at h
    cases h

/-- A finite value is only read from the text of a decimal number with this value. -/
theorem parseReal_sound (s : List Char) (x : Num) (r : List Char) (h : parseReal s = some (x, r)) :
    (∃ l : Literal, l.Ok ∧ s = l.text ++ r ∧ x = .fin l.val) ∨
      ((x = .nan ∨ ∃ neg, x = .inf neg) ∧ r.length < s.length ∧
        ∃ (sg : Sign) (b : List Char), s = sg.text ++ b ∧ special (sg.factor == -1) b = some (x, r)) := by
  obtain ⟨sg, h1, h2⟩ := readSign_split s
  unfold parseReal at h
  simp only at h
  set b := (readSign s).2 with hb
  set neg := (readSign s).1 with hneg
  have finish : ∀ (ds fs t : List Char) (fo : Option (List Char)), (∀ c ∈ ds, c.isDigit) →
      (∀ c ∈ fs, c.isDigit) → fs = (match fo with | .none => [] | some f => f) →
      (ds ≠ [] ∨ ∃ f, fo = some f ∧ f ≠ []) →
      b = ds ++ ((match fo with | .none => [] | some f => '.' :: f) ++ t) →
      some (withExponent neg ds fs t) = some (x, r) →
      ∃ l : Literal, l.Ok ∧ s = l.text ++ r ∧ x = .fin l.val := by
    intro ds fs t fo hds hfs hfo hne hbt hx
    injection hx with hx
    obtain ⟨e, he, ht, hv⟩ := withExponent_split neg ds fs t
    rw [hx] at ht hv
    refine ⟨⟨sg, ds, fo, e⟩, ⟨hds, ?_, hne, he⟩, ?_, ?_⟩
    · intro f hf
      simp only at hf
      subst hf
      simp only at hfo
      rw [← hfo]
      exact hfs
    · rw [text_eq]
      simp only [List.append_assoc]
      rw [← ht, ← hbt]
      exact h1
    · rw [← val_eq sg neg ds fs fo e h2 hfo]
      exact hv
  obtain ⟨hd1, hd2⟩ := digits_split b
  by_cases hd : digits b = []
  · rw [if_pos hd] at h
    cases hs : special neg b with
    | some y =>
      rw [hs] at h
      simp only at h
      injection h with h
      rw [h] at hs
      right
      obtain ⟨h3, h4⟩ := special_length neg b x r hs
      refine ⟨h4.imp_right fun h => ⟨_, h⟩, ?_, sg, b, h1, ?_⟩
      · have : s.length = sg.text.length + b.length := by rw [h1]; simp
        omega
      · have hn : (sg.factor == -1) = neg := by
          rw [← h2]
          cases neg <;> rfl
        rw [hn]
        exact hs
    | none =>
      rw [hs] at h
      simp only at h
      left
      cases hbb : b with
      | nil => rw [hbb] at h; cases h
      | cons c t =>
        rw [hbb] at h
        split at h
        · rename_i t' heq
          split at h
          · cases h
          · rename_i hne
            injection heq with e1 e2
            subst e1 e2
            obtain ⟨q1, q2⟩ := digits_split t
            refine finish [] (digits t) (afterDigits t) (some (digits t)) (by simp) q2 rfl (Or.inr ⟨_, rfl, hne⟩) ?_ h
            rw [hbb]
            simp only [List.nil_append, List.cons_append]
            rw [← q1]
        · cases h
  · rw [if_neg hd] at h
    left
    split at h
    · rename_i t heq
      obtain ⟨q1, q2⟩ := digits_split t
      refine finish (digits b) (digits t) (afterDigits t) (some (digits t)) hd2 q2 rfl (Or.inl hd) ?_ h
      simp only [List.cons_append]
      rw [← q1, ← heq]
      exact hd1
    · exact finish (digits b) [] (afterDigits b) none hd2 (by simp) rfl (Or.inl hd) hd1 h

theorem literal_length (l : Literal) (hl : l.Ok) : 0 < l.text.length := by
  unfold Literal.text
  rcases hl.some_digit with h | ⟨f, hf, _⟩
  · have := List.length_pos_iff.2 h
    simp
    omega
  · rw [hf]
    simp

theorem parseReal_length (s : List Char) (x : Num) (r : List Char) (h : parseReal s = some (x, r)) :
    r.length < s.length := by
  rcases parseReal_sound s x r h with ⟨l, hl, hs, _⟩ | ⟨_, h, _⟩
  · have := literal_length l hl
    rw [hs]
    simp
    omega
  · exact h

theorem real_length (s : List Char) (x : Num) (r : List Char) (h : real s = some (x, r)) : r.length < s.length := by
  have h1 := parseReal_length _ _ _ h
  have h2 := Visr.ChannelList.skipWs_length s
  omega

/-- Characters with which a number can begin. -/
def startsNumber (c : Char) : Bool :=
  c.isDigit || c = '+' || c = '-' || c = '.' || c = 'n' || c = 'N' || c = 'i' || c = 'I'

theorem parseReal_none (s : List Char) (h : ∀ c ∈ s.head?, startsNumber c = false) : parseReal s = none := by
  cases s with
  | nil => rfl
  | cons c s =>
    have hc := h c (by simp)
    simp only [startsNumber, Bool.or_eq_false_iff, decide_eq_false_iff_not] at hc
    obtain ⟨⟨⟨⟨⟨⟨⟨h0, h1⟩, h2⟩, h3⟩, h4⟩, h5⟩, h6⟩, h7⟩ := hc
    have hs : readSign (c :: s) = (false, c :: s) := by simp [readSign, h1, h2]
    have hd : digits (c :: s) = [] := by simp [digits, h0]
    unfold parseReal
    simp only [hs]
    rw [if_pos hd]
    cases hsp : special false (c :: s) with
    | some y =>
      obtain ⟨x, r⟩ := y
      have := special_none_text _ _ _ _ hsp c (by simp)
      tauto
    | none =>
      simp only
      split
      · rename_i heq
        injection heq with e1 _
        exact absurd e1 h3
      · rfl

end Visr.RealText
