import Verif.ChannelList.Lemmas

/-! # C45 Index sequences expand to the progressions they denote -/

namespace Visr.ChannelList
open Visr

/-! ## Specification -/

/-- One part of an index sequence. -/
inductive Item where
  /-- `a` -/
  | single (a : Nat)
  /-- `a:b` -/
  | range (a b : Nat)
  /-- `a:s:b` -/
  | stepped (a : Nat) (s : Int) (b : Nat)
  deriving DecidableEq

/-- The text of a part. -/
def Item.text : Item → List Char
  | .single a => printNat a
  | .range a b => printNat a ++ ':' :: printNat b
  | .stepped a s b => printNat a ++ ':' :: (printInt s ++ ':' :: printNat b)

/-- The text of a sequence: its parts, separated by commas. -/
def text : List Item → List Char
  | [] => []
  | [i] => i.text
  | i :: j :: is => i.text ++ ',' :: text (j :: is)

/-- `l` is the progression that starts with `a`, has increment `s` and goes on as long as it has not
passed `b`. -/
def IsProgression (a s b : Int) (l : List Int) : Prop :=
  ∀ (k : Nat) (v : Int), l[k]? = some v ↔
    v = a + k * s ∧ ((0 < s ∧ v ≤ b) ∨ (s < 0 ∧ b ≤ v))

/-- The indices denoted by a part. -/
def Denotes : Item → List Int → Prop
  | .single a, l => l = [(a : Int)]
  | .range a b, l => IsProgression a 1 b l
  | .stepped a s b, l => IsProgression a s b l

/-- All numbers are of moderate size, so that no computation in 32-bit integers overflows. -/
def Item.Small : Item → Prop
  | .single a => a < 2 ^ 30
  | .range a b => a < 2 ^ 30 ∧ b < 2 ^ 30
  | .stepped a s b => a < 2 ^ 30 ∧ b < 2 ^ 30 ∧ -(2 : Int) ^ 30 ≤ s ∧ s ≤ (2 : Int) ^ 30

/-- A part with increment zero. -/
def Item.ZeroStep : Item → Prop
  | .stepped _ s _ => s = 0
  | _ => False

/-! ## Proofs -/

theorem isProgression_nil {a s b : Int} (h : ¬ ((0 < s ∧ a ≤ b) ∨ (s < 0 ∧ b ≤ a))) :
    IsProgression a s b [] := by
  intro k v
  simp only [List.getElem?_nil, reduceCtorEq, false_iff]
  rintro ⟨rfl, hv⟩
  apply h
  have hk : (0 : Int) ≤ k := Int.natCast_nonneg k
  rcases hv with ⟨hs, hv⟩ | ⟨hs, hv⟩
  · left; exact ⟨hs, by nlinarith⟩
  · right; exact ⟨hs, by nlinarith⟩

theorem isProgression_cons {a s b : Int} {l : List Int} (h : (0 < s ∧ a ≤ b) ∨ (s < 0 ∧ b ≤ a))
    (hl : IsProgression (a + s) s b l) : IsProgression a s b (a :: l) := by
  intro k v
  cases k with
  | zero =>
    simp only [List.getElem?_cons_zero, Option.some.injEq, Nat.cast_zero, zero_mul, add_zero]
    constructor
    · rintro rfl; exact ⟨rfl, h⟩
    · rintro ⟨rfl, -⟩; rfl
  | succ k =>
    rw [List.getElem?_cons_succ, hl k v]
    have : a + s + (k : Int) * s = a + ((k + 1 : Nat) : Int) * s := by push_cast; ring
    rw [this]

theorem upLoop_progression (inc : Nat) (h : 0 < inc) (val stop : Int) (h0 : 0 ≤ val)
    (hmax : stop + inc ≤ intMax) :
    ∃ l, upLoop inc h val stop = .ok l ∧ IsProgression val inc stop l := by
  induction hn : (stop - val + 1).toNat using Nat.strongRecOn generalizing val with
  | ind n ih =>
    subst hn
    rw [upLoop]
    by_cases hv : val ≤ stop
    · rw [dif_pos hv]
      have hi : inInt (val + inc) = true := by
        rw [inInt_iff]; rw [intMax_eq] at hmax; omega
      obtain ⟨l, hl, hp⟩ := ih (stop - (val + inc) + 1).toNat (by omega) (val + inc) (by omega) rfl
      rw [if_pos hi, hl]
      exact ⟨_, rfl, isProgression_cons (.inl ⟨by omega, hv⟩) hp⟩
    · rw [dif_neg hv]
      exact ⟨_, rfl, isProgression_nil (by omega)⟩

theorem downLoop_progression (dec : Nat) (h : 0 < dec) (val stop : Int) (h0 : val ≤ intMax)
    (hmin : intMin ≤ stop - dec) :
    ∃ l, downLoop dec h val stop = .ok l ∧ IsProgression val (-dec) stop l := by
  induction hn : (val - stop + 1).toNat using Nat.strongRecOn generalizing val with
  | ind n ih =>
    subst hn
    rw [downLoop]
    by_cases hv : val ≥ stop
    · rw [dif_pos hv]
      have hi : inInt (val - dec) = true := by
        simp only [inInt, Bool.and_eq_true, decide_eq_true_eq]
        omega
      obtain ⟨l, hl, hp⟩ := ih (val - dec - stop + 1).toNat (by omega) (val - dec) (by omega) rfl
      rw [if_pos hi, hl]
      exact ⟨_, rfl, isProgression_cons (.inr ⟨by omega, hv⟩) hp⟩
    · rw [dif_neg hv]
      exact ⟨_, rfl, isProgression_nil (by omega)⟩

theorem unitLoop_progression (val stop : Nat) : IsProgression val 1 stop (unitLoop val stop) := by
  induction hn : stop + 1 - val using Nat.strongRecOn generalizing val with
  | ind n ih =>
    subst hn
    rw [unitLoop]
    by_cases hv : val ≤ stop
    · rw [if_pos hv]
      have := ih (stop + 1 - (val + 1)) (by omega) (val + 1) rfl
      push_cast at this
      exact isProgression_cons (.inl ⟨by omega, by exact_mod_cast hv⟩) this
    · rw [if_neg hv]
      exact isProgression_nil (by omega)

/-- The values of the colon group of a part. -/
def Item.values : Item → List Int
  | .single a => [(a : Int)]
  | .range a b => [(a : Int), (b : Int)]
  | .stepped a s b => [(a : Int), s, (b : Int)]

theorem parseGroup_item (i : Item) (hs : i.Small) {r : List Char} (hr : GroupEnd r) :
    parseGroup (i.text ++ r) = some (i.values, r) := by
  have hlt : ∀ n : Nat, n < 2 ^ 30 → (n : Int) ≤ intMax := by
    intro n h; unfold intMax; omega
  cases i with
  | single a => exact parseGroup_last (parseInt_printNat a hr.noDigit (hlt _ hs)) hr
  | range a b =>
    simp only [Item.text, List.append_assoc, List.cons_append]
    refine parseGroup_more (parseInt_printNat a (noDigit_cons (by decide)) (hlt _ hs.1)) ?_
    exact parseGroup_last (parseInt_printNat b hr.noDigit (hlt _ hs.2)) hr
  | stepped a s b =>
    simp only [Item.text, List.append_assoc, List.cons_append]
    refine parseGroup_more (parseInt_printNat a (noDigit_cons (by decide)) (hlt _ hs.1)) ?_
    refine parseGroup_more (parseInt_printInt s (noDigit_cons (by decide)) ?_) ?_
    · obtain ⟨-, -, h1, h2⟩ := hs
      rw [inInt_iff]; omega
    · exact parseGroup_last (parseInt_printNat b hr.noDigit (hlt _ hs.2.1)) hr

theorem expandGroup_item (i : Item) (hs : i.Small) (hz : ¬ i.ZeroStep) :
    ∃ l, expandGroup i.values = .ok l ∧ Denotes i l := by
  cases i with
  | single a =>
    refine ⟨[(a : Int)], ?_, rfl⟩
    simp only [Item.values, expandGroup]
    rw [if_neg (by omega)]
  | range a b =>
    refine ⟨unitLoop a b, ?_, unitLoop_progression a b⟩
    simp only [Item.values, expandGroup]
    rw [if_neg (by omega)]
    simp
  | stepped a s b =>
    obtain ⟨ha, hb, h1, h2⟩ := hs
    simp only [Item.values, expandGroup]
    rw [if_neg (by omega)]
    have hz' : s ≠ 0 := hz
    rw [dif_neg hz']
    by_cases hp : s > 0
    · rw [dif_pos hp]
      obtain ⟨l, hl, hpr⟩ := upLoop_progression s.toNat (by omega) a b (by omega)
        (by unfold intMax; omega)
      refine ⟨l, hl, ?_⟩
      rw [Int.toNat_of_nonneg (by omega)] at hpr
      exact hpr
    · rw [dif_neg hp]
      obtain ⟨l, hl, hpr⟩ := downLoop_progression (-s).toNat (by omega) a b
        (by unfold intMax; omega) (by unfold intMin; omega)
      refine ⟨l, hl, ?_⟩
      rw [Int.toNat_of_nonneg (by omega), Int.neg_neg] at hpr
      exact hpr

theorem expandGroup_zero (i : Item) (hz : i.ZeroStep) :
    expandGroup i.values = .throw .cString := by
  cases i with
  | single a => exact hz.elim
  | range a b => exact hz.elim
  | stepped a s b =>
    have hz' : s = 0 := hz
    subst hz'
    simp only [Item.values, expandGroup]
    rw [if_neg (by omega)]
    simp

theorem parseGroups_throw {s r : List Char} {g : _} {e : Exn} (h : parseGroup s = some (g, r))
    (he : expandGroup g = .throw e) : parseGroups s = some (.throw e, r) := by
  rw [parseGroups]
  split
  · rename_i h'; rw [h] at h'; simp at h'
  · rename_i g' r' h'
    rw [h] at h'
    simp only [Option.some.injEq, Prod.mk.injEq] at h'
    obtain ⟨rfl, rfl⟩ := h'
    rw [he]

/-- Outcome of the parser for non-empty texts. -/
theorem parseGroups_text (i : Item) (is : List Item) (hs : ∀ j ∈ i :: is, j.Small) :
    ((∀ j ∈ i :: is, ¬ j.ZeroStep) →
      ∃ parts, List.Forall₂ Denotes (i :: is) parts ∧
        parseGroups (text (i :: is)) = some (.ok parts.flatten, [])) ∧
    ((∃ j ∈ i :: is, j.ZeroStep) → ∃ r, parseGroups (text (i :: is)) = some (.throw .cString, r)) := by
  induction is generalizing i with
  | nil =>
    have hg := parseGroup_item i (hs i (by simp)) (r := []) (.inl rfl)
    rw [List.append_nil] at hg
    constructor
    · intro hz
      obtain ⟨l, hl, hd⟩ := expandGroup_item i (hs i (by simp)) (hz i (by simp))
      refine ⟨[l], .cons hd .nil, ?_⟩
      simp only [text, List.flatten_cons, List.flatten_nil, List.append_nil]
      exact parseGroups_last hg hl rfl
    · rintro ⟨j, hj, hz⟩
      rw [List.mem_singleton] at hj
      subst hj
      exact ⟨[], parseGroups_throw hg (expandGroup_zero j hz)⟩
  | cons k is ih =>
    have hg := parseGroup_item i (hs i (by simp)) (r := ',' :: text (k :: is)) (.inr ⟨_, rfl⟩)
    obtain ⟨ih1, ih2⟩ := ih k (fun j hj => hs j (List.mem_cons_of_mem _ hj))
    constructor
    · intro hz
      obtain ⟨l, hl, hd⟩ := expandGroup_item i (hs i (by simp)) (hz i (by simp))
      obtain ⟨parts, hp, he⟩ := ih1 (fun j hj => hz j (List.mem_cons_of_mem _ hj))
      refine ⟨l :: parts, .cons hd hp, ?_⟩
      simp only [text, List.flatten_cons]
      rw [parseGroups_more hg hl he]
      rfl
    · rintro ⟨j, hj, hz⟩
      by_cases hi : i.ZeroStep
      · exact ⟨_, parseGroups_throw hg (expandGroup_zero i hi)⟩
      · obtain ⟨l, hl, hd⟩ := expandGroup_item i (hs i (by simp)) hi
        rcases List.mem_cons.mp hj with rfl | hj
        · exact absurd hz hi
        · obtain ⟨r, hr⟩ := ih2 ⟨j, hj, hz⟩
          refine ⟨r, ?_⟩
          simp only [text]
          rw [parseGroups_more hg hl hr]
          rfl

/-! ## Properties -/

/-- C45: a text whose steps are all non-zero is expanded to the concatenation of the progressions
denoted by its parts. -/
theorem sequence_expands (is : List Item) (hs : ∀ i ∈ is, i.Small)
    (hz : ∀ i ∈ is, ¬ i.ZeroStep) :
    ∃ parts, List.Forall₂ Denotes is parts ∧ parse (text is) = .ok parts.flatten := by
  cases is with
  | nil =>
    have h0 : parseInt [] = none := by decide
    have h1 : parseGroup [] = none := by
      rw [parseGroup]
      split
      · rfl
      · rename_i h; rw [h0] at h; simp at h
    have h2 : parseGroups [] = none := by
      rw [parseGroups]
      split
      · rfl
      · rename_i h; rw [h1] at h; simp at h
    exact ⟨[], .nil, by simp [text, parse, h2, skipWs]⟩
  | cons i is =>
    obtain ⟨parts, hp, he⟩ := (parseGroups_text i is hs).1 hz
    exact ⟨parts, hp, by simp [parse, he, skipWs]⟩

/-- C45: a text with a zero step is rejected with an exception (which is a C string, not a
`std::exception`). -/
theorem sequence_zero_step (is : List Item) (hs : ∀ i ∈ is, i.Small)
    (hz : ∃ i ∈ is, i.ZeroStep) : parse (text is) = .throw .cString := by
  cases is with
  | nil => obtain ⟨i, hi, -⟩ := hz; simp at hi
  | cons i is =>
    obtain ⟨r, he⟩ := (parseGroups_text i is hs).2 hz
    simp [parse, he]

/-- Steps that point away from the end, and descending ranges without a step, are not rejected
(unlike in `ChannelRange`, C01): they denote nothing. -/
theorem sequence_away_accepted (a b : Nat) (s : Int) (ha : a < 2 ^ 30) (hb : b < 2 ^ 30)
    (hs1 : -(2 : Int) ^ 30 ≤ s) (hs2 : s ≤ (2 : Int) ^ 30)
    (haway : (0 < s ∧ b < a) ∨ (s < 0 ∧ a < b)) :
    parse (text [.stepped a s b]) = .ok [] ∧ (b < a → parse (text [.range a b]) = .ok []) := by
  have nil_of : ∀ (s : Int) (l : List Int), ((0 < s ∧ b < a) ∨ (s < 0 ∧ a < b)) →
      IsProgression a s b l → l = [] := by
    intro s l h hp
    cases l with
    | nil => rfl
    | cons x l =>
      have := (hp 0 x).mp rfl
      simp only [Nat.cast_zero, zero_mul, add_zero] at this
      omega
  constructor
  · obtain ⟨parts, hp, he⟩ := sequence_expands [.stepped a s b]
      (by simpa [Item.Small] using ⟨ha, hb, hs1, hs2⟩)
      (by simp [Item.ZeroStep]; omega)
    rw [he]
    cases hp with
    | cons h1 h2 =>
      cases h2
      rw [nil_of _ _ haway h1]
      rfl
  · intro hba
    obtain ⟨parts, hp, he⟩ := sequence_expands [.range a b]
      (by simpa [Item.Small] using ⟨ha, hb⟩) (by simp [Item.ZeroStep])
    rw [he]
    cases hp with
    | cons h1 h2 =>
      cases h2
      rw [nil_of 1 _ (.inl ⟨by omega, hba⟩) h1]
      rfl

/-- Close to the largest 32-bit integer the expansion runs into signed overflow, which is
undefined, although all three numbers are representable. -/
theorem sequence_overflow_ub : parse (text [.stepped 2147483646 2 2147483647]) = .ub := by
  have hlt : ∀ n : Nat, n ≤ 2147483647 → (n : Int) ≤ intMax := by
    intro n h; unfold intMax; omega
  have hg : parseGroup (text [.stepped 2147483646 2 2147483647]) =
      some ([2147483646, 2, 2147483647], []) := by
    simp only [text, Item.text]
    refine parseGroup_more (parseInt_printNat _ (noDigit_cons (by decide)) (hlt _ (by omega))) ?_
    refine parseGroup_more (parseInt_printInt 2 (noDigit_cons (by decide)) (by decide)) ?_
    have := parseInt_printNat 2147483647 noDigit_nil (hlt _ (by omega))
    rw [List.append_nil] at this
    exact parseGroup_last this (.inl rfl)
  have he : expandGroup [2147483646, 2, 2147483647] = .ub := by
    simp only [expandGroup]
    rw [if_neg (by omega), dif_neg (by omega), dif_pos (by omega), upLoop, dif_pos (by omega), if_neg]
    simp [inInt, intMax]
  have : parseGroups (text [.stepped 2147483646 2 2147483647]) = some (.ub, []) := by
    rw [parseGroups]
    split
    · rename_i h'; rw [hg] at h'; simp at h'
    · rename_i g' r' h'
      rw [hg] at h'
      simp only [Option.some.injEq, Prod.mk.injEq] at h'
      obtain ⟨rfl, rfl⟩ := h'
      rw [he]
  simp [parse, this]

/-- The text `3,1:4,9:-3:2` and the indices it denotes. -/
example : text [.single 3, .range 1 4, .stepped 9 (-3) 2] = "3,1:4,9:-3:2".toList ∧
    List.Forall₂ Denotes [.single 3, .range 1 4] [[3], unitLoop 1 4] ∧
    (∀ i ∈ [Item.single 3, .range 1 4, .stepped 9 (-3) 2], i.Small ∧ ¬ i.ZeroStep) := by
  refine ⟨?_, .cons rfl (.cons (unitLoop_progression 1 4) .nil), ?_⟩
  · simp [text, Item.text, printNat, printInt, Nat.digitChar]
  · simp [Item.Small, Item.ZeroStep]

end Visr.ChannelList
