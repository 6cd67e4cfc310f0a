import Verif.ChannelList.Model
import Mathlib.Tactic.Ring
import Mathlib.Tactic.Linarith
import Mathlib.Tactic.IntervalCases

/-! Helper facts about channel ranges, printing and parsing. -/

namespace Visr.ChannelList
open Visr

theorem lt_ceil_up (D s : Int) (hD : 0 ≤ D) (hs : 0 < s) (k : Nat) :
    k < (D.tdiv s + (if D.tmod s = 0 then 0 else 1)).toNat ↔ (k : Int) * s < D := by
  rw [Int.tdiv_eq_ediv_of_nonneg hD, Int.tmod_eq_emod_of_nonneg hD]
  have h1 := Int.mul_ediv_add_emod D s
  have h2 := Int.emod_nonneg D (ne_of_gt hs)
  have h3 := Int.emod_lt_of_pos D hs
  have h4 : 0 ≤ D / s := Int.ediv_nonneg hD hs.le
  generalize D / s = q at *
  generalize D % s = r at *
  constructor
  · intro h
    split at h
    · have : (k : Int) + 1 ≤ q := by omega
      nlinarith
    · have : (k : Int) ≤ q := by omega
      rcases eq_or_lt_of_le this with e | e
      · subst e
        have : 0 < r := by omega
        nlinarith
      · nlinarith
  · intro h
    split
    · have : (k : Int) < q := by
        by_contra hc
        have : q ≤ (k : Int) := by omega
        nlinarith
      omega
    · have : (k : Int) ≤ q := by
        by_contra hc
        have : q + 1 ≤ (k : Int) := by omega
        nlinarith
      omega

theorem lt_ceil_down (D s : Int) (hD : D ≤ 0) (hs : s < 0) (k : Nat) :
    k < (D.tdiv s + (if D.tmod s = 0 then 0 else 1)).toNat ↔ D < (k : Int) * s := by
  have h := lt_ceil_up (-D) (-s) (by omega) (by omega) k
  rw [Int.tdiv_neg, Int.neg_tdiv, Int.neg_neg, Int.tmod_neg, Int.neg_tmod] at h
  simp only [Int.neg_eq_zero] at h
  rw [h]
  constructor <;> intro h <;> nlinarith

theorem appendLoop_eq (step : Int) (n : Nat) (run : Int) :
    appendLoop step n run = (List.range n).map fun (k : Nat) => run + (k : Int) * step := by
  induction n generalizing run with
  | zero => simp [appendLoop]
  | succ n ih =>
    rw [appendLoop, ih, List.range_succ_eq_map]
    simp only [List.map_cons, List.map_map, Nat.cast_zero, zero_mul, add_zero, List.cons.injEq, true_and]
    apply List.map_congr_left
    intro k _
    simp only [Function.comp, Nat.succ_eq_add_one]
    push_cast; ring

theorem inInt_iff {i : Int} : inInt i = true ↔ -2147483648 ≤ i ∧ i ≤ 2147483647 := by
  simp only [inInt, Bool.and_eq_true, decide_eq_true_eq]; rfl

theorem intMax_eq : intMax = 2147483647 := rfl
theorem intMin_eq : intMin = -2147483648 := rfl

/-! ### digits -/

theorem digitChar_isDigit {n : Nat} (h : n < 10) : (Nat.digitChar n).isDigit = true := by
  interval_cases n <;> decide

theorem digitVal_digitChar {n : Nat} (h : n < 10) : digitVal (Nat.digitChar n) = n := by
  interval_cases n <;> decide

/-- Does the input not begin with a digit? -/
def NoDigit (r : List Char) : Prop := ∀ c cs, r = c :: cs → c.isDigit = false

theorem readDigits_noDigit (acc : Nat) {r : List Char} (h : NoDigit r) : readDigits acc r = (acc, 0, r) := by
  cases r with
  | nil => rfl
  | cons c cs => simp [readDigits, h c cs rfl]

theorem readDigits_print (n acc : Nat) (r : List Char) :
    readDigits acc (printNat n ++ r) =
      (let d := readDigits (acc * 10 ^ (printNat n).length + n) r
       (d.1, d.2.1 + (printNat n).length, d.2.2)) := by
  induction n using Nat.strongRecOn generalizing acc r with
  | ind n ih =>
    rw [printNat]
    split
    · rename_i h
      simp only [List.cons_append, List.nil_append, readDigits, digitChar_isDigit h, if_true,
        digitVal_digitChar h, List.length_singleton, pow_one]
    · rename_i h
      have hm : n % 10 < 10 := Nat.mod_lt _ (by decide)
      rw [List.append_assoc, ih (n / 10) (by omega)]
      simp only [List.cons_append, List.nil_append, readDigits, digitChar_isDigit hm, if_true,
        digitVal_digitChar hm, List.length_append, List.length_singleton]
      have : (acc * 10 ^ (printNat (n / 10)).length + n / 10) * 10 + n % 10
          = acc * 10 ^ ((printNat (n / 10)).length + 1) + n := by
        rw [Nat.pow_succ]
        have := Nat.div_add_mod n 10
        ring_nf
        ring_nf at this
        omega
      rw [this]
      simp only [Prod.mk.injEq, and_true, true_and]
      omega

theorem printNat_ne_nil (n : Nat) : printNat n ≠ [] := by
  rw [printNat]; split <;> simp

theorem printNat_digits (n : Nat) : ∀ c ∈ printNat n, c.isDigit = true := by
  induction n using Nat.strongRecOn with
  | ind n ih =>
    rw [printNat]
    split
    · rename_i h; simp [digitChar_isDigit h]
    · rename_i h
      intro c hc
      simp only [List.mem_append, List.mem_singleton] at hc
      rcases hc with hc | hc
      · exact ih _ (by omega) c hc
      · subst hc; exact digitChar_isDigit (Nat.mod_lt _ (by decide))

theorem isSpace_of_digit {c : Char} (h : c.isDigit = true) : isSpace c = false := by
  simp only [isSpace, Bool.or_eq_false_iff, decide_eq_false_iff_not]
  refine ⟨⟨⟨⟨⟨?_, ?_⟩, ?_⟩, ?_⟩, ?_⟩, ?_⟩ <;> (rintro rfl; revert h; decide)

theorem ne_of_digit {c d : Char} (h : c.isDigit = true) (hd : d.isDigit = false) : c ≠ d := by
  rintro rfl; rw [h] at hd; exact absurd hd (by decide)

theorem printNat_cons (n : Nat) : ∃ c cs, printNat n = c :: cs ∧ c.isDigit = true := by
  cases h : printNat n with
  | nil => exact absurd h (printNat_ne_nil n)
  | cons c cs => exact ⟨c, cs, rfl, printNat_digits n c (by rw [h]; simp)⟩

theorem skipWs_cons {c : Char} {cs : List Char} (h : isSpace c = false) : skipWs (c :: cs) = c :: cs := by
  simp [skipWs, h]

theorem readDigits_print_end (n : Nat) {r : List Char} (hr : NoDigit r) :
    readDigits 0 (printNat n ++ r) = (n, (printNat n).length, r) := by
  rw [readDigits_print, readDigits_noDigit _ hr]; simp

theorem parseInt_printNat (n : Nat) {r : List Char} (hr : NoDigit r) (hn : (n : Int) ≤ intMax) :
    parseInt (printNat n ++ r) = some ((n : Int), r) := by
  obtain ⟨c, cs, hc, hd⟩ := printNat_cons n
  have h1 : skipWs (printNat n ++ r) = printNat n ++ r := by
    rw [hc, List.cons_append, skipWs_cons (isSpace_of_digit hd)]
  have h2 : readSign (printNat n ++ r) = (false, printNat n ++ r) := by
    rw [hc, List.cons_append, readSign, if_neg (ne_of_digit hd (by decide)), if_neg (ne_of_digit hd (by decide))]
  have h3 : (printNat n).length ≠ 0 := by rw [hc]; simp
  have h4 : inInt (n : Int) = true := by
    rw [intMax_eq] at hn
    exact inInt_iff.2 ⟨by omega, hn⟩
  simp [parseInt, h1, h2, readDigits_print_end n hr, h3, h4]

theorem parseInt_printInt (i : Int) {r : List Char} (hr : NoDigit r) (hi : inInt i = true) :
    parseInt (printInt i ++ r) = some (i, r) := by
  unfold printInt
  split
  · rename_i hneg
    have h1 : skipWs ('-' :: printNat i.natAbs ++ r) = '-' :: (printNat i.natAbs ++ r) := by
      rw [List.cons_append, skipWs_cons (by decide)]
    have h2 : readSign ('-' :: (printNat i.natAbs ++ r)) = (true, printNat i.natAbs ++ r) := by
      simp [readSign]
    have h3 : (printNat i.natAbs).length ≠ 0 := by
      obtain ⟨c, cs, hc, _⟩ := printNat_cons i.natAbs; rw [hc]; simp
    have h4 : -(i.natAbs : Int) = i := by omega
    simp only [parseInt, h1, h2, readDigits_print_end _ hr, h3, h4, hi, if_true, if_false]
  · rename_i hpos
    have h4 : (i.natAbs : Int) = i := by omega
    have := parseInt_printNat i.natAbs hr (by
      rw [inInt_iff] at hi; rw [intMax_eq]; omega)
    rw [this, h4]

theorem noDigit_cons {c : Char} {cs : List Char} (h : c.isDigit = false) : NoDigit (c :: cs) := by
  intro c' cs' he; simp only [List.cons.injEq] at he; rw [← he.1]; exact h

theorem noDigit_nil : NoDigit [] := by intro c cs h; simp at h

/-- End of a colon group: end of input or a comma. -/
def GroupEnd (r : List Char) : Prop := r = [] ∨ ∃ r', r = ',' :: r'

theorem GroupEnd.noDigit {r : List Char} (h : GroupEnd r) : NoDigit r := by
  rcases h with rfl | ⟨r', rfl⟩
  · exact noDigit_nil
  · exact noDigit_cons (by decide)

theorem GroupEnd.skip {r : List Char} (h : GroupEnd r) : skipWs r = r := by
  rcases h with rfl | ⟨r', rfl⟩
  · rfl
  · exact skipWs_cons (by decide)

theorem parseGroup_last {s r : List Char} {i : Int} (h : parseInt s = some (i, r)) (hr : GroupEnd r) :
    parseGroup s = some ([i], r) := by
  rw [parseGroup]
  split
  · rename_i h'; rw [h] at h'; simp at h'
  · rename_i i' r1 h'
    rw [h] at h'
    simp only [Option.some.injEq, Prod.mk.injEq] at h'
    obtain ⟨rfl, rfl⟩ := h'
    split
    · rename_i r' hw
      rw [hr.skip] at hw
      rcases hr with rfl | ⟨r'', rfl⟩
      · simp at hw
      · simp at hw
    · rfl

theorem parseGroup_more {s r r2 : List Char} {i : Int} {is : List Int} (h : parseInt s = some (i, ':' :: r))
    (h2 : parseGroup r = some (is, r2)) : parseGroup s = some (i :: is, r2) := by
  rw [parseGroup]
  split
  · rename_i h'; rw [h] at h'; simp at h'
  · rename_i i' r1 h'
    rw [h] at h'
    simp only [Option.some.injEq, Prod.mk.injEq] at h'
    obtain ⟨rfl, rfl⟩ := h'
    split
    · rename_i r' hw
      rw [skipWs_cons (by decide)] at hw
      simp only [List.cons.injEq, true_and] at hw
      subst hw
      rw [h2]
    · rename_i hne
      exact absurd (skipWs_cons (cs := r) (c := ':') (by decide)) (hne r)

/-! ### runs -/

theorem scanRun_spec (diff cur : Int) (xs : List Nat) :
    ∃ run : List Nat, xs = run ++ (scanRun diff cur xs).2.2 ∧ run.length = (scanRun diff cur xs).2.1 ∧
      (scanRun diff cur xs).1 = cur + diff * run.length ∧
      run.map (fun n : Nat => (n : Int)) = (List.range run.length).map fun k : Nat => cur + diff * (k + 1) := by
  induction xs generalizing cur with
  | nil => exact ⟨[], by simp [scanRun]⟩
  | cons x xs ih =>
    unfold scanRun
    split
    · rename_i hx
      obtain ⟨run, h1, h2, h3, h4⟩ := ih (x : Int)
      refine ⟨x :: run, by simp [← h1], by simp [h2], ?_, ?_⟩
      · simp only [List.length_cons]
        rw [h3]; push_cast; rw [← hx]; ring
      · simp only [List.map_cons, List.length_cons, h4, List.range_succ_eq_map, List.map_map]
        simp only [List.cons.injEq]
        refine ⟨by rw [← hx]; push_cast; ring, ?_⟩
        apply List.map_congr_left
        intro k _
        simp only [Function.comp, Nat.succ_eq_add_one]
        rw [← hx]; push_cast; ring
    · exact ⟨[], by simp⟩

theorem upLoop_run (inc : Nat) (h : 0 < inc) (n : Nat) (val stop : Int) (hstop : stop = val + inc * n)
    (h0 : 0 ≤ val) (hmax : stop + inc ≤ intMax) :
    upLoop inc h val stop = .ok ((List.range (n + 1)).map fun k : Nat => val + inc * k) := by
  induction n generalizing val with
  | zero =>
    simp only [Nat.cast_zero, mul_zero, add_zero] at hstop
    subst hstop
    rw [upLoop, dif_pos le_rfl]
    have hin : inInt (stop + inc) = true := by
      rw [inInt_iff]; rw [intMax_eq] at hmax; omega
    rw [if_pos hin, upLoop, dif_neg (by omega)]
    simp
  | succ n ih =>
    have hle : val ≤ stop := by
      rw [hstop]; push_cast
      have : (0 : Int) ≤ inc * (n + 1) := by positivity
      omega
    have hnext : val + inc ≤ stop := by
      rw [hstop]; push_cast
      have : (0 : Int) ≤ inc * n := by positivity
      nlinarith
    have hin : inInt (val + inc) = true := by
      rw [inInt_iff]; rw [intMax_eq] at hmax; omega
    rw [upLoop, dif_pos hle, if_pos hin, ih (val + inc) (by rw [hstop]; push_cast; ring) (by omega)]
    simp only [Outcome.ok.injEq]
    rw [List.range_succ_eq_map (n := n + 1)]
    simp only [List.map_cons, List.map_map, Nat.cast_zero, mul_zero, add_zero, List.cons.injEq, true_and]
    apply List.map_congr_left
    intro k _
    simp only [Function.comp, Nat.succ_eq_add_one]; push_cast; ring

theorem downLoop_run (dec : Nat) (h : 0 < dec) (n : Nat) (val stop : Int) (hstop : stop = val - dec * n)
    (h0 : val ≤ intMax) (hmin : intMin ≤ stop - dec) :
    downLoop dec h val stop = .ok ((List.range (n + 1)).map fun k : Nat => val - dec * k) := by
  induction n generalizing val with
  | zero =>
    simp only [Nat.cast_zero, mul_zero, sub_zero] at hstop
    subst hstop
    rw [downLoop, dif_pos le_rfl]
    have hin : inInt (stop - dec) = true := by
      rw [inInt_iff]; rw [intMax_eq] at h0; rw [intMin_eq] at hmin; omega
    rw [if_pos hin, downLoop, dif_neg (by omega)]
    simp
  | succ n ih =>
    have hle : val ≥ stop := by
      rw [hstop]; push_cast
      have : (0 : Int) ≤ dec * (n + 1) := by positivity
      omega
    have hnext : val - dec ≥ stop := by
      rw [hstop]; push_cast
      have : (0 : Int) ≤ dec * n := by positivity
      nlinarith
    have hin : inInt (val - dec) = true := by
      rw [inInt_iff]; rw [intMax_eq] at h0; rw [intMin_eq] at hmin; omega
    rw [downLoop, dif_pos hle, if_pos hin, ih (val - dec) (by rw [hstop]; push_cast; ring) (by omega)]
    simp only [Outcome.ok.injEq]
    rw [List.range_succ_eq_map (n := n + 1)]
    simp only [List.map_cons, List.map_map, Nat.cast_zero, mul_zero, sub_zero, List.cons.injEq, true_and]
    apply List.map_congr_left
    intro k _
    simp only [Function.comp, Nat.succ_eq_add_one]; push_cast; ring

theorem unitLoop_run (n : Nat) (val : Nat) :
    unitLoop val (val + n) = (List.range (n + 1)).map fun k : Nat => (val : Int) + k := by
  induction n generalizing val with
  | zero =>
    rw [unitLoop, if_pos (by omega), unitLoop, if_neg (by omega)]
    simp
  | succ n ih =>
    rw [unitLoop, if_pos (by omega)]
    have := ih (val + 1)
    rw [show val + 1 + n = val + (n + 1) by omega] at this
    rw [this, List.range_succ_eq_map (n := n + 1)]
    simp only [List.map_cons, List.map_map, Nat.cast_zero, add_zero, List.cons.injEq, true_and]
    apply List.map_congr_left
    intro k _
    simp only [Function.comp, Nat.succ_eq_add_one]; push_cast; ring

theorem parseGroups_last {s r : List Char} {g l : _} (h : parseGroup s = some (g, r)) (he : expandGroup g = .ok l)
    (hr : r = []) : parseGroups s = some (.ok l, []) := by
  subst hr
  rw [parseGroups]
  split
  · rename_i h'; rw [h] at h'; simp at h'
  · rename_i g' r1 h'
    rw [h] at h'
    simp only [Option.some.injEq, Prod.mk.injEq] at h'
    obtain ⟨rfl, rfl⟩ := h'
    rw [he]
    simp [skipWs]

theorem parseGroups_more {s r r2 : List Char} {g l : _} {o : Outcome (List Int)}
    (h : parseGroup s = some (g, ',' :: r)) (he : expandGroup g = .ok l)
    (h2 : parseGroups r = some (o, r2)) : parseGroups s = some (o.map (l ++ ·), r2) := by
  rw [parseGroups]
  split
  · rename_i h'; rw [h] at h'; simp at h'
  · rename_i g' r1 h'
    rw [h] at h'
    simp only [Option.some.injEq, Prod.mk.injEq] at h'
    obtain ⟨rfl, rfl⟩ := h'
    rw [he]
    simp only
    split
    · rename_i r' hw
      rw [skipWs_cons (by decide)] at hw
      simp only [List.cons.injEq, true_and] at hw
      subst hw
      rw [h2]
    · rename_i hne
      exact absurd (skipWs_cons (cs := r) (c := ',') (by decide)) (hne r)

end Visr.ChannelList
