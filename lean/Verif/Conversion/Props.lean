import Verif.Conversion.Model
import Verif.Efl.PropsAligned
import Mathlib.Data.Rat.Cast.Order
import Mathlib.Tactic.Linarith
import Mathlib.Tactic.NormNum
import Mathlib.Tactic.Ring
import Mathlib.Tactic.IntervalCases

/-!
# Conversion of sample types (C81)
-/

namespace Visr.Conversion

/-! ### The loop -/

theorem loop_spec (conv : α → Outcome β) (src : List α) (is os : Nat) (hos : 1 ≤ os) (n i o : Nat) (dest : List β)
    (x : Nat → α) (y : Nat → β) (hx : ∀ k < n, src[i + k * is]? = some (x k)) (hy : ∀ k < n, conv (x k) = .ok (y k))
    (hd : ∀ k < n, o + k * os < dest.length) :
    ∃ d, loop conv src is os n i o dest = .ok d ∧ d.length = dest.length ∧ (∀ k < n, d[o + k * os]? = some (y k)) ∧
      ∀ j, (∀ k < n, j ≠ o + k * os) → d[j]? = dest[j]? := by
  induction n generalizing i o dest x y with
  | zero => exact ⟨dest, rfl, rfl, by simp, by simp⟩
  | succ n ih =>
    have h0 := hx 0 (by omega)
    have h1 := hd 0 (by omega)
    simp only [Nat.zero_mul, Nat.add_zero] at h0 h1
    have e : ∀ a s k : Nat, a + s + k * s = a + (k + 1) * s := by intro a s k; rw [Nat.add_mul]; omega
    obtain ⟨d, l1, l2, l3, l4⟩ := ih (i + is) (o + os) (dest.set o (y 0)) (fun k => x (k + 1)) (fun k => y (k + 1))
      (fun k hk => by rw [e]; exact hx (k + 1) (by omega)) (fun k hk => hy (k + 1) (by omega))
      (fun k hk => by rw [e, List.length_set]; exact hd (k + 1) (by omega))
    have he : loop conv src is os (n + 1) i o dest = .ok d := by
      rw [loop, h0]
      simp only [hy 0 (by omega), Outcome.ok_bind]
      rw [if_pos h1, l1]
    refine ⟨d, he, by rw [l2, List.length_set], ?_, ?_⟩
    · intro k hk
      cases k with
      | zero =>
        rw [Nat.zero_mul, Nat.add_zero, l4, List.getElem?_set_self h1]
        intro k _
        omega
      | succ k => rw [← e]; exact l3 k (by omega)
    · intro j hj
      have hj0 : o ≠ j := by have := hj 0 (by omega); omega
      rw [l4, List.getElem?_set_ne hj0]
      intro k hk
      rw [e]; exact hj (k + 1) (by omega)

/-- **C81**: every variant converts element number `k` at distance `k * inStride` from the source pointer, writes it at distance
`k * outStride` from the destination pointer, and writes nothing else; if both pointers have the requested alignment. -/
theorem converted (sizeIn sizeOut : BitVec 64) (conv : α → Outcome β) (src : List α) (ps : Pointer) (dest : List β)
    (pd : Pointer) (n is os : Nat) (alignment : BitVec 64) (hos : 1 ≤ os)
    (hs : Efl.checkAlignment sizeIn ps.address alignment = true) (hd : Efl.checkAlignment sizeOut pd.address alignment = true)
    (x : Nat → α) (y : Nat → β) (hx : ∀ k < n, src[ps.index + k * is]? = some (x k)) (hy : ∀ k < n, conv (x k) = .ok (y k))
    (hb : ∀ k < n, pd.index + k * os < dest.length) :
    ∃ d, convertInputOutputStride sizeIn sizeOut conv src ps dest pd n is os alignment = .ok (.noError, d) ∧
      d.length = dest.length ∧ (∀ k < n, d[pd.index + k * os]? = some (y k)) ∧
      ∀ j, (∀ k < n, j ≠ pd.index + k * os) → d[j]? = dest[j]? := by
  obtain ⟨d, l1, l2⟩ := loop_spec conv src is os hos n ps.index pd.index dest x y hx hy hb
  exact ⟨d, by simp [convertInputOutputStride, hs, hd, l1], l2⟩

/-- The variants with contiguous source or destination are the same with stride one. -/
theorem variants (sizeIn sizeOut : BitVec 64) (conv : α → Outcome β) (src : List α) (ps : Pointer) (dest : List β)
    (pd : Pointer) (n s : Nat) (al : BitVec 64) :
    convert sizeIn sizeOut conv src ps dest pd n al = convertInputOutputStride sizeIn sizeOut conv src ps dest pd n 1 1 al ∧
    convertInputStride sizeIn sizeOut conv src ps dest pd n s al =
      convertInputOutputStride sizeIn sizeOut conv src ps dest pd n s 1 al ∧
    convertOutputStride sizeIn sizeOut conv src ps dest pd n s al =
      convertInputOutputStride sizeIn sizeOut conv src ps dest pd n 1 s al := ⟨rfl, rfl, rfl⟩

/-- **C81**: pointers that are not multiples of the requested alignment (a power of two, in elements) are rejected and nothing
is written. -/
theorem misaligned_rejected (sizeIn sizeOut : BitVec 64) (conv : α → Outcome β) (src : List α) (ps : Pointer) (dest : List β)
    (pd : Pointer) (n is os : Nat) (al : BitVec 64) (j k : Nat) (hj : sizeIn.toNat = 2 ^ j) (hk : sizeOut.toNat = 2 ^ k)
    (h0 : al.toNat ≠ 0) (hi : al.toNat * sizeIn.toNat < 2 ^ 64) (ho : al.toNat * sizeOut.toNat < 2 ^ 64)
    (h : ¬ al.toNat * sizeIn.toNat ∣ ps.address.toNat ∨ ¬ al.toNat * sizeOut.toNat ∣ pd.address.toNat) :
    convertInputOutputStride sizeIn sizeOut conv src ps dest pd n is os al = .ok (.alignmentError, dest) := by
  have h1 := Efl.checkAlignment_iff sizeIn ps.address al j hj hi
  have h2 := Efl.checkAlignment_iff sizeOut pd.address al k hk ho
  unfold convertInputOutputStride
  rcases h with h | h
  · rw [if_pos]
    rw [Bool.eq_false_iff]
    intro hc
    rcases h1.1 hc with h3 | h3
    · exact h0 h3
    · exact h h3.2
  · split
    · rfl
    · rw [if_pos]
      rw [Bool.eq_false_iff]
      intro hc
      rcases h2.1 hc with h3 | h3
      · exact h0 h3
      · exact h h3.2

theorem loop_outside (f : α → β) (src : List α) (is os n i o : Nat) (dest : List β)
    (h : ∃ k < n, src.length ≤ i + k * is ∨ dest.length ≤ o + k * os) :
    loop (fun v => .ok (f v)) src is os n i o dest = .ub := by
  induction n generalizing i o dest with
  | zero => obtain ⟨k, hk, _⟩ := h; omega
  | succ n ih =>
    rw [loop]
    split
    · rfl
    · rename_i v hv
      rw [Outcome.ok_bind]
      split
      · rename_i ho
        apply ih
        obtain ⟨k, hk, hk'⟩ := h
        cases k with
        | zero =>
          simp only [Nat.zero_mul, Nat.add_zero] at hk'
          have := (List.getElem?_eq_some_iff.1 hv).1
          omega
        | succ k =>
          refine ⟨k, by omega, ?_⟩
          have e : ∀ a s : Nat, a + s + k * s = a + (k + 1) * s := by intro a s; rw [Nat.add_mul]; omega
          rw [e, e, List.length_set]; exact hk'
      · rfl

/-- The precondition: the behaviour is undefined as soon as one element is outside its array. -/
theorem outside_undefined (sizeIn sizeOut : BitVec 64) (f : α → β) (src : List α) (ps : Pointer) (dest : List β) (pd : Pointer)
    (n is os : Nat) (h : ∃ k < n, src.length ≤ ps.index + k * is ∨ dest.length ≤ pd.index + k * os) :
    convertInputOutputStride sizeIn sizeOut (fun v => .ok (f v)) src ps dest pd n is os 0 = .ub := by
  have : ∀ s a, Efl.checkAlignment s a 0#64 = true := by intro s a; simp [Efl.checkAlignment]
  simp [convertInputOutputStride, this, loop_outside f src is os n _ _ dest h]

/-! ### Rounding -/

/-- `n` is an integer nearest to `q`; of two, the even one. -/
def Nearest (q : ℚ) (n : Int) : Prop := |(n : ℚ) - q| ≤ 1 / 2 ∧ (|(n : ℚ) - q| = 1 / 2 → n % 2 = 0)

theorem rint_nearest (q : ℚ) : Nearest q (rint q) := by
  have h1 := Int.floor_le q
  have h2 := Int.lt_floor_add_one q
  unfold Nearest rint
  generalize ⌊q⌋ = f at *
  split
  · rename_i h
    have e : |(f : ℚ) - q| = q - f := by rw [abs_sub_comm]; exact abs_of_nonneg (by linarith)
    rw [e]
    exact ⟨by linarith, fun h' => by linarith⟩
  · split
    · rename_i h h'
      have e : |((f + 1 : Int) : ℚ) - q| = f + 1 - q := by
        rw [Int.cast_add, Int.cast_one]; exact abs_of_nonneg (by linarith)
      rw [e]
      exact ⟨by linarith, fun h' => by linarith⟩
    · rename_i h h'
      have hq : q = f + 1 / 2 := by linarith
      split
      · rename_i hf
        refine ⟨?_, fun _ => hf⟩
        rw [hq]
        have : (f : ℚ) - (f + 1 / 2) = -(1 / 2) := by ring
        rw [this, abs_neg, abs_of_pos (by norm_num)]
      · rename_i hf
        refine ⟨?_, fun _ => by omega⟩
        rw [hq]
        have : ((f + 1 : Int) : ℚ) - (f + 1 / 2) = 1 / 2 := by push_cast; ring
        rw [this, abs_of_pos (by norm_num)]

/-- There is only one such integer. -/
theorem nearest_unique (q : ℚ) (m n : Int) (hm : Nearest q m) (hn : Nearest q n) : m = n := by
  obtain ⟨a1, a2⟩ := hm
  obtain ⟨b1, b2⟩ := hn
  have a3 := abs_le.1 a1
  have b3 := abs_le.1 b1
  by_contra hne
  have h1 : (m : ℚ) - n ≤ 1 := by linarith
  have h2 : (n : ℚ) - m ≤ 1 := by linarith
  have h1' : m - n ≤ 1 := by exact_mod_cast h1
  have h2' : n - m ≤ 1 := by exact_mod_cast h2
  rcases lt_or_gt_of_ne hne with h | h
  · have e : n = m + 1 := by omega
    subst e
    push_cast at *
    have ha : (m : ℚ) - q = -(1 / 2) := by linarith
    have hb : (m : ℚ) + 1 - q = 1 / 2 := by linarith
    have := a2 (by rw [ha, abs_neg, abs_of_pos (by norm_num)])
    have := b2 (by rw [hb, abs_of_pos (by norm_num)])
    omega
  · have e : m = n + 1 := by omega
    subst e
    push_cast at *
    have ha : (n : ℚ) - q = -(1 / 2) := by linarith
    have hb : (n : ℚ) + 1 - q = 1 / 2 := by linarith
    have := b2 (by rw [ha, abs_neg, abs_of_pos (by norm_num)])
    have := a2 (by rw [hb, abs_of_pos (by norm_num)])
    omega

theorem wrap_id (bits : Nat) (hb : 1 ≤ bits) (n : Int) (h : -2 ^ (bits - 1) ≤ n ∧ n < 2 ^ (bits - 1)) : wrap bits n = n := by
  obtain ⟨b, rfl⟩ : ∃ b, bits = b + 1 := ⟨bits - 1, by omega⟩
  simp only [Nat.add_sub_cancel] at h
  unfold wrap
  simp only [Nat.add_sub_cancel]
  have e : (2 : Int) ^ (b + 1) = 2 * 2 ^ b := by rw [pow_succ]; ring
  rw [e]
  generalize (2 : Int) ^ b = m at *
  by_cases h0 : 0 ≤ n
  · rw [Int.emod_eq_of_lt h0 (by omega), if_pos h.2]
  · have : n % (2 * m) = n + 2 * m := by
      rw [← Int.add_emod_right, Int.emod_eq_of_lt (by omega) (by omega)]
    rw [this, if_neg (by omega)]; omega

/-- **C81** (partial: only for values in the range of the integer type, see `out_of_range_wraps`): a floating-point number is
converted to the nearest integer, and to the even one of two. -/
theorem float_to_int_partial (bits : Nat) (hb : 1 ≤ bits) (hb' : bits ≤ 64) (q : ℚ) (n : Int) (hn : Nearest q n)
    (h : -2 ^ (bits - 1) ≤ n ∧ n < 2 ^ (bits - 1)) : floatToInt bits (.finite q) = .ok n := by
  have e : rint q = n := nearest_unique q _ _ (rint_nearest q) hn
  have hp : (2 : Int) ^ (bits - 1) ≤ 2 ^ 63 := pow_le_pow_right₀ (by norm_num) (by omega)
  rw [floatToInt, e, if_pos ⟨by omega, by omega⟩, wrap_id bits hb n h]

/-- Integers of a type that are exactly represented as floating-point numbers come back unchanged. -/
theorem int_round_trip (bits : Nat) (hb : 1 ≤ bits) (hb' : bits ≤ 64) (n : Int) (h : -2 ^ (bits - 1) ≤ n ∧ n < 2 ^ (bits - 1)) :
    floatToInt bits (.finite n) = .ok n :=
  float_to_int_partial bits hb hb' n n ⟨by simp, by simp⟩ h

/-- Conversion to a type that contains the value does not change it. -/
theorem int_to_int (bits : Nat) (hb : 1 ≤ bits) (n : Int) (h : -2 ^ (bits - 1) ≤ n ∧ n < 2 ^ (bits - 1)) :
    intToInt bits n = .ok n := by rw [intToInt, wrap_id bits hb n h]

/-- Values just above the range become the most negative number instead of the largest one (for types smaller than 64 bits). -/
theorem out_of_range_wraps (bits : Nat) (hb : 1 ≤ bits) (hb' : bits < 64) :
    floatToInt bits (.finite (2 ^ (bits - 1))) = .ok (-2 ^ (bits - 1)) := by
  have e : rint ((2 : ℚ) ^ (bits - 1)) = 2 ^ (bits - 1) :=
    nearest_unique _ _ _ (rint_nearest _) ⟨by push_cast; simp, by push_cast; simp⟩
  have hp : (2 : Int) ^ (bits - 1) < 2 ^ 63 := pow_lt_pow_right₀ (by norm_num) (by omega)
  have h0 : (0 : Int) < 2 ^ (bits - 1) := pow_pos (by norm_num) _
  rw [floatToInt, e, if_pos ⟨by omega, hp⟩]
  obtain ⟨b, rfl⟩ : ∃ b, bits = b + 1 := ⟨bits - 1, by omega⟩
  simp only [Nat.add_sub_cancel] at *
  unfold wrap
  simp only [Nat.add_sub_cancel]
  have e2 : (2 : Int) ^ (b + 1) = 2 * 2 ^ b := by rw [pow_succ]; ring
  rw [e2]
  generalize (2 : Int) ^ b = m at *
  rw [Int.emod_eq_of_lt (by omega) (by omega), if_neg (by omega)]
  congr 1; omega

/-- The result for numbers outside of the range of 64-bit integers, infinities and NaN is not defined. -/
theorem no_result (bits : Nat) : floatToInt bits .other = .ub ∧ floatToInt bits (.finite (2 ^ 63)) = .ub := by
  refine ⟨rfl, ?_⟩
  have e : rint ((2 : ℚ) ^ 63) = 2 ^ 63 :=
    nearest_unique _ _ _ (rint_nearest _) ⟨by norm_num, by norm_num⟩
  rw [floatToInt, e, if_neg (by norm_num)]

namespace Demo

/-- Two interleaved channels are converted to 8-bit integers; the even one of two nearest integers is taken. -/
example : convertInputStride 4 1 (floatToInt 8) [.finite (5 / 2), .finite 100, .finite (-7 / 2), .finite 200] ⟨0x1000, 0⟩
    [9, 9, 9] ⟨0x2000, 1⟩ 2 2 0 = .ok (.noError, [9, 2, -4]) := by decide +kernel

example : Nearest (5 / 2) 2 := by
  constructor <;> norm_num [abs_of_neg]

/-- The hypotheses of `converted` are met. -/
example : ∃ d, convertInputOutputStride 4 1 (floatToInt 8) [.finite (5 / 2), .finite 100, .finite (-7 / 2), .finite 200]
      ⟨0x1000, 0⟩ [9, 9, 9] ⟨0x2000, 1⟩ 2 2 1 4 = .ok (.noError, d) ∧ d.length = 3 := by
  obtain ⟨d, h1, h2, _⟩ := converted 4 1 (floatToInt 8) [.finite (5 / 2), .finite 100, .finite (-7 / 2), .finite 200]
    ⟨0x1000, 0⟩ [9, 9, 9] ⟨0x2000, 1⟩ 2 2 1 4 (by omega) (by decide) (by decide)
    (fun k => if k = 0 then .finite (5 / 2) else .finite (-7 / 2)) (fun k => if k = 0 then 2 else -4)
    (by intro k hk; interval_cases k <;> rfl) (by intro k hk; interval_cases k <;> decide +kernel)
    (by intro k hk; interval_cases k <;> decide)
  exact ⟨d, h1, h2⟩

/-- 200 as an 8-bit sample is negative. -/
theorem wraps : floatToInt 8 (.finite 200) = .ok (-56) := by decide +kernel

example : ¬ (4 : Nat) * 4 ∣ 0x1004 := by decide

end Demo

end Visr.Conversion
