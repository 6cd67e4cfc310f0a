import Verif.NdArray.Spec
import Verif.FlexibleBuffer.Props
import Verif.Efl.PropsMatrix
import Mathlib.Tactic.Ring
import Mathlib.Data.BitVec

namespace Visr.NdArray

open Visr

variable {K : Type} {σ : Type}

theorem size_pos {size : BitVec 64} (h : PowerOfTwo size) : 0 < size.toNat := by
  obtain ⟨k, _, e⟩ := h
  rw [e]; exact Nat.two_pow_pos k

theorem size_dvd {size : BitVec 64} (h : PowerOfTwo size) : size.toNat ∣ 2 ^ 64 := by
  obtain ⟨k, hk, e⟩ := h
  rw [e]; exact Nat.pow_dvd_pow 2 (by omega)

/-- Division of a stride by the size and multiplication with it give the stride. -/
theorem mul_elementStride {size : BitVec 64} (h : PowerOfTwo size) {s : Int} (hs : (size.toNat : Int) ∣ s) :
    size * elementStride size s = BitVec.ofInt 64 s := by
  apply BitVec.eq_of_toNat_eq
  unfold elementStride
  rw [BitVec.toNat_mul, BitVec.toNat_udiv]
  have hd : size.toNat ∣ (BitVec.ofInt 64 s).toNat := by
    rw [BitVec.toNat_ofInt]
    have h1 : (size.toNat : Int) ∣ s % (2 ^ 64 : Nat) := by
      rw [Int.emod_def]
      exact Int.dvd_sub hs (Int.dvd_trans (by exact_mod_cast size_dvd h) (Int.dvd_mul_right _ _))
    have h2 : (0 : Int) ≤ s % (2 ^ 64 : Nat) := Int.emod_nonneg _ (by decide)
    rw [← Int.natCast_dvd_natCast, Int.toNat_of_nonneg h2]
    exact h1
  rw [Nat.mul_div_cancel' hd, Nat.mod_eq_of_lt (BitVec.isLt _)]

/-- The address that is read for sample `i` of channel `ch`. -/
theorem sample_address {size : BitVec 64} (h : PowerOfTwo size) (base : BitVec 64) {s0 s1 : Int} (h0 : (size.toNat : Int) ∣ s0)
    (h1 : (size.toNat : Int) ∣ s1) (ch i : Nat) :
    base + size * (BitVec.ofNat 64 ch * elementStride size s0) + BitVec.ofNat 64 i * (size * elementStride size s1) =
      base + BitVec.ofInt 64 (ch * s0 + i * s1) := by
  have e0 : size * (BitVec.ofNat 64 ch * elementStride size s0) = BitVec.ofNat 64 ch * BitVec.ofInt 64 s0 := by
    rw [← mul_elementStride h h0]
    ring
  rw [e0, mul_elementStride h h1, BitVec.ofInt_add, BitVec.ofInt_mul, BitVec.ofInt_mul]
  simp only [BitVec.ofInt_natCast]
  ring

theorem readStrided_ok (mem : Memory K) (size stride : BitVec 64) (x : Nat → K) : ∀ (n k : Nat) (p : BitVec 64),
    (∀ i < n, mem (p + BitVec.ofNat 64 i * (size * stride)) = some (x (k + i))) →
    readStrided mem size stride n p = .ok ((List.range n).map fun i => x (k + i))
  | 0, _, _, _ => rfl
  | n + 1, k, p, h => by
    rw [readStrided]
    have h0 : mem p = some (x k) := by simpa using h 0 (by omega)
    rw [h0]
    dsimp only
    rw [readStrided_ok mem size stride x n (k + 1) (p + size * stride)]
    · rw [List.range_succ_eq_map, List.map_cons, List.map_map]
      have : (List.range n).map (fun i => x (k + 1 + i)) = (List.range n).map ((fun i => x (k + i)) ∘ Nat.succ) := by
        apply List.map_congr_left
        intro i _
        show x (k + 1 + i) = x (k + (i + 1))
        congr 1; omega
      rw [← this]; rfl
    · intro i hi
      have := h (i + 1) (by omega)
      rw [show k + 1 + i = k + (i + 1) by omega, ← this]
      congr 1
      rw [← BitVec.ofNat_add_ofNat, show BitVec.ofNat 64 1 = 1 from rfl]
      ring

theorem readChannels_ok (mem : Memory K) (size base cs ss : BitVec 64) (n : Nat) (x : Nat → Nat → K) : ∀ (k ch : Nat),
    (∀ c < k, ∀ i < n, mem (base + size * (BitVec.ofNat 64 (ch + c) * cs) + BitVec.ofNat 64 i * (size * ss)) = some (x (ch + c) i)) →
    readChannels mem size base cs ss n k ch = .ok ((List.range k).map fun c => (List.range n).map fun i => x (ch + c) i)
  | 0, _, _ => rfl
  | k + 1, ch, h => by
    rw [readChannels, readStrided_ok mem size ss (x ch) n 0 _ (by simpa using h 0 (by omega))]
    dsimp only
    rw [readChannels_ok mem size base cs ss n x k (ch + 1)]
    · rw [List.range_succ_eq_map, List.map_cons, List.map_map]
      simp only [Nat.zero_add, Nat.add_zero]
      congr 2
      apply List.map_congr_left
      intro c _
      show (List.range n).map (x (ch + 1 + c)) = (List.range n).map (x (ch + (c + 1)))
      rw [show ch + 1 + c = ch + (c + 1) by omega]
    · intro c hc i hi
      have := h (c + 1) (by omega) i hi
      rwa [show ch + (c + 1) = ch + 1 + c by omega] at this

theorem whole {size : BitVec 64} {a : Nd} (h : WholeStrides size a) : (size.toNat : Int) ∣ a.strides.headD 0 ∧
    (size.toNat : Int) ∣ a.strides.getD 1 0 := by
  constructor
  · cases e : a.strides with
    | nil => simp
    | cons s l => exact h s (by rw [e]; simp)
  · rw [List.getD_eq_getElem?_getD]
    cases e : a.strides[1]? with
    | none => simp
    | some s => exact h s (List.mem_of_getElem? e)

theorem readChannels_elements {mem : Memory K} {size : BitVec 64} (hsize : PowerOfTwo size) {a : Nd} (hw : WholeStrides size a)
    {rows cols : Nat} {x : Nat → Nat → K} (h : Elements mem a rows cols x) :
    readChannels mem size a.base (elementStride size (a.strides.headD 0)) (elementStride size (a.strides.getD 1 0)) cols rows 0 =
      .ok ((List.range rows).map fun c => (List.range cols).map fun i => x c i) := by
  rw [readChannels_ok mem size a.base _ _ cols x rows 0]
  · simp
  · intro c hc i hi
    rw [Nat.zero_add, sample_address hsize a.base (whole hw).1 (whole hw).2]
    exact h.2 c hc i hi

theorem writeStrided_ok (n S : Nat) (y : Nat → K) : ∀ (k j pos : Nat) (out : List K), pos + k ≤ out.length →
    ∃ out', writeStrided 1 ((List.range k).map fun i => y (j + i)) pos out = .ok out' ∧ out'.length = out.length ∧
      ∀ p, out'[p]? = if pos ≤ p ∧ p < pos + k then some (y (j + (p - pos))) else out[p]?
  | 0, j, pos, out, _ => ⟨out, rfl, rfl, fun p => by rw [if_neg (by omega)]⟩
  | k + 1, j, pos, out, h => by
    obtain ⟨out', e, hl, hv⟩ := writeStrided_ok n S y k (j + 1) (pos + 1) (out.set pos (y j)) (by rw [List.length_set]; omega)
    refine ⟨out', ?_, by rw [hl, List.length_set], ?_⟩
    · rw [List.range_succ_eq_map, List.map_cons, List.map_map, writeStrided, if_pos (by omega)]
      rw [← e]
      congr 1
      apply List.map_congr_left
      intro i _
      show y (j + (i + 1)) = y (j + 1 + i)
      congr 1; omega
    · intro p
      rw [hv p]
      by_cases h1 : pos + 1 ≤ p ∧ p < pos + 1 + k
      · rw [if_pos h1, if_pos (by omega)]
        congr 2; omega
      · rw [if_neg h1]
        by_cases h2 : p = pos
        · subst h2
          rw [if_pos (by omega), List.getElem?_set_self (by omega)]
          simp
        · rw [if_neg (by omega), List.getElem?_set_ne (by omega)]

theorem writeChannels_ok (n : Nat) (y : Nat → Nat → K) : ∀ (k ch : Nat) (out : List K), (ch + k) * n ≤ out.length →
    ∃ out', writeChannels n 1 n y k ch out = .ok out' ∧ out'.length = out.length ∧
      ∀ c i, i < n → out'[c * n + i]? = if ch ≤ c ∧ c < ch + k then some (y c i) else out[c * n + i]?
  | 0, ch, out, _ => ⟨out, rfl, rfl, fun c i _ => by rw [if_neg (by omega)]⟩
  | k + 1, ch, out, h => by
    have hle : ch * n + n ≤ out.length := by
      have := Nat.mul_le_mul_right n (show ch + 1 ≤ ch + (k + 1) by omega)
      rw [Nat.add_mul ch 1, Nat.one_mul] at this
      omega
    obtain ⟨o1, e1, l1, v1⟩ := writeStrided_ok n n (y ch) n 0 (ch * n) out hle
    obtain ⟨o2, e2, l2, v2⟩ := writeChannels_ok n y k (ch + 1) o1 (by rw [l1, show ch + 1 + k = ch + (k + 1) by omega]; exact h)
    have hr : ((List.range n).map (y ch)) = (List.range n).map fun i => y ch (0 + i) := by
      apply List.map_congr_left; intro i _; rw [Nat.zero_add]
    refine ⟨o2, by rw [writeChannels, hr, e1]; exact e2, by rw [l2, l1], ?_⟩
    intro c i hi
    rw [v2 c i hi]
    by_cases h1 : ch + 1 ≤ c ∧ c < ch + 1 + k
    · rw [if_pos h1, if_pos (by omega)]
    · rw [if_neg h1, v1]
      by_cases h2 : c = ch
      · subst h2
        rw [if_pos (by omega), if_pos (by omega)]
        congr 2; omega
      · rw [if_neg, if_neg (by omega)]
        rintro ⟨g1, g2⟩
        rcases Nat.lt_or_gt_of_ne h2 with h3 | h3
        · have := Nat.mul_le_mul_right n (show c + 1 ≤ ch by omega)
          rw [Nat.add_mul, Nat.one_mul] at this
          omega
        · have := Nat.mul_le_mul_right n (show ch + 1 ≤ c by omega)
          rw [Nat.add_mul, Nat.one_mul] at this
          omega

theorem newArray_ok (size : BitVec 64) (channels n : Nat) (junk : K) (h : channels * n * size.toNat < 2 ^ 63)
    (h' : n * size.toNat < 2 ^ 63) :
    newArray size channels n junk = .ok ⟨[channels, n], [size.toNat * n, size.toNat], List.replicate (channels * n) junk⟩ := by
  rw [newArray, if_pos ⟨h, h'⟩]

theorem new_elem {size : BitVec 64} (hs : 0 < size.toNat) (channels n : Nat) (cells : List K) (i j : Nat) :
    (New.mk [channels, n] [size.toNat * n, size.toNat] cells).elem size i j = cells[i * n + j]? := by
  unfold New.elem
  have e : i * (size.toNat * n) + j * size.toNat = (i * n + j) * size.toNat := by ring
  simp only [List.headD_cons, List.getD_eq_getElem?_getD, List.getElem?_cons_succ, List.getElem?_cons_zero, Option.getD_some]
  rw [e, Nat.mul_mod_left, if_pos rfl, Nat.mul_div_cancel _ hs]

end Visr.NdArray
