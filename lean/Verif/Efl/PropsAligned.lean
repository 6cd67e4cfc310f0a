import Verif.Efl.Aligned
import Mathlib.Tactic.Common
import Mathlib.Tactic.Ring
import Mathlib.Tactic.SplitIfs
import Mathlib.Tactic.Linarith
import Mathlib.Algebra.Order.Ring.Nat

/-!
# C18: aligned sizes and aligned storage
-/

namespace Visr.Efl
open Visr

/-! ## Powers of two -/

theorem testBit_one' (i : Nat) : Nat.testBit 1 i = decide (i = 0) := by
  rcases i with _ | i
  · rfl
  · simp [Nat.testBit_succ]

theorem odd_and_neg {m j : Nat} (hodd : m % 2 = 1) (hm : m < 2 ^ j) : m &&& (2 ^ j - m) = 1 := by
  obtain ⟨t, rfl⟩ : ∃ t, m = t + 1 := ⟨m - 1, by omega⟩
  apply Nat.eq_of_testBit_eq
  intro i
  rw [Nat.testBit_and, Nat.testBit_two_pow_sub_succ (by omega), testBit_one']
  have ht : t % 2 = 0 := by omega
  rcases i with _ | i
  · have hj : 0 < j := by
      rcases j with _ | j
      · simp at hm
      · omega
    simp [Nat.testBit_zero, hodd, ht, hj]
  · have : (t + 1).testBit (i + 1) = t.testBit (i + 1) := by
      rw [Nat.testBit_succ, Nat.testBit_succ]; congr 1; omega
    rw [this]
    cases t.testBit (i + 1) <;> simp

theorem exists_odd_part {n : Nat} (hn : 0 < n) : ∃ k m, n = 2 ^ k * m ∧ m % 2 = 1 := by
  induction n using Nat.strongRecOn with
  | ind n ih =>
    rcases Nat.mod_two_eq_zero_or_one n with h | h
    · obtain ⟨k, m, hk, hm⟩ := ih (n / 2) (by omega) (by omega)
      refine ⟨k + 1, m, ?_, hm⟩
      rw [Nat.pow_succ, Nat.mul_right_comm, ← hk]; omega
    · exact ⟨0, n, by simp, h⟩

/-- **C18.** The power-of-two test is exact on all 64-bit numbers. -/
theorem alignmentIsPowerOfTwo_iff (a : BitVec 64) : alignmentIsPowerOfTwo a = true ↔ ∃ k, a.toNat = 2 ^ k := by
  unfold alignmentIsPowerOfTwo
  by_cases h0 : a = 0#64
  · subst h0
    constructor
    · intro h; simp at h
    · rintro ⟨k, hk⟩
      have : 0 < 2 ^ k := Nat.two_pow_pos k
      simp at hk; omega
  · have hpos : 0 < a.toNat := by
      rcases Nat.eq_zero_or_pos a.toNat with h | h
      · exact absurd (BitVec.eq_of_toNat_eq (by simpa using h)) h0
      · exact h
    obtain ⟨k, m, hk, hm⟩ := exists_odd_part hpos
    have hlt := a.isLt
    have hk64 : k < 64 := by
      by_contra hc
      have : 2 ^ 64 ≤ 2 ^ k := Nat.pow_le_pow_right (by omega) (by omega)
      have hmpos : 1 ≤ m := by omega
      have := Nat.mul_le_mul this hmpos
      omega
    have hmlt : m < 2 ^ (64 - k) := by
      rw [hk] at hlt
      have : 2 ^ 64 = 2 ^ k * 2 ^ (64 - k) := by rw [← Nat.pow_add]; congr 1; omega
      rw [this] at hlt
      exact Nat.lt_of_mul_lt_mul_left hlt
    have hneg : (~~~a + 1#64).toNat = 2 ^ 64 - a.toNat := by
      rw [BitVec.toNat_add, BitVec.toNat_not]
      simp; omega
    have hand : (a &&& (~~~a + 1#64)).toNat = 2 ^ k := by
      rw [BitVec.toNat_and, hneg, hk]
      have : 2 ^ 64 - 2 ^ k * m = 2 ^ k * (2 ^ (64 - k) - m) := by
        rw [Nat.mul_sub]; congr 1; rw [← Nat.pow_add]; congr 1; omega
      rw [this, Nat.mul_comm _ m, Nat.mul_comm _ (2 ^ (64 - k) - m), ← Nat.shiftLeft_eq, ← Nat.shiftLeft_eq,
        ← Nat.shiftLeft_and_distrib, odd_and_neg hm hmlt, Nat.shiftLeft_eq, Nat.one_mul]
    have hne : (a != 0#64) = true := by simpa using h0
    rw [hne, Bool.true_and, beq_iff_eq]
    constructor
    · intro h; exact ⟨k, by rw [← hand, h]⟩
    · rintro ⟨l, hl⟩
      apply BitVec.eq_of_toNat_eq
      rw [hand]
      have hm1 : m = 1 := by
        have hd : m ∣ 2 ^ l := by rw [← hl, hk]; exact Nat.dvd_mul_left _ _
        have hco : Nat.Coprime m (2 ^ l) := by
          apply Nat.Coprime.pow_right
          rw [Nat.coprime_comm]
          unfold Nat.Coprime
          rw [Nat.gcd_rec, hm]; rfl
        exact Nat.Coprime.eq_one_of_dvd hco hd
      rw [hk, hm1, Nat.mul_one]

example : alignmentIsPowerOfTwo 64#64 = true ∧ alignmentIsPowerOfTwo 48#64 = false := by decide

/-- **C18.** The alignment test is exact for element sizes that are powers of two. -/
theorem checkAlignment_iff (elemSize ptr alignment : BitVec 64) (j : Nat) (hj : elemSize.toNat = 2 ^ j)
    (hfit : alignment.toNat * elemSize.toNat < 2 ^ 64) :
    checkAlignment elemSize ptr alignment = true ↔
      alignment.toNat = 0 ∨
      ((∃ k, alignment.toNat = 2 ^ k) ∧ alignment.toNat * elemSize.toNat ∣ ptr.toNat) := by
  unfold checkAlignment
  by_cases h0 : alignment = 0#64
  · simp [h0]
  have h0' : alignment.toNat ≠ 0 := fun h => h0 (BitVec.eq_of_toNat_eq (by simpa using h))
  have hb : (alignment == 0#64) = false := by simpa using h0
  simp only [hb, Bool.false_eq_true, if_false, h0', false_or]
  rw [← alignmentIsPowerOfTwo_iff]
  by_cases hp : alignmentIsPowerOfTwo alignment = true
  · obtain ⟨k, hk⟩ := (alignmentIsPowerOfTwo_iff _).mp hp
    simp only [hp, Bool.not_true, Bool.false_eq_true, if_false, true_and]
    have hprod : alignment.toNat * elemSize.toNat = 2 ^ (k + j) := by rw [hk, hj, Nat.pow_add]
    have hmask : (alignment * elemSize - 1#64).toNat = 2 ^ (k + j) - 1 := by
      rw [hprod] at hfit
      have hpos : 0 < 2 ^ (k + j) := Nat.two_pow_pos _
      rw [BitVec.toNat_sub, BitVec.toNat_mul, hprod, Nat.mod_eq_of_lt hfit]
      simp; omega
    rw [hprod, beq_iff_eq]
    constructor
    · intro h
      have := congrArg BitVec.toNat h
      rw [BitVec.toNat_and, hmask, Nat.and_two_pow_sub_one_eq_mod] at this
      exact Nat.dvd_of_mod_eq_zero (by simpa using this)
    · intro h
      apply BitVec.eq_of_toNat_eq
      rw [BitVec.toNat_and, hmask, Nat.and_two_pow_sub_one_eq_mod, Nat.mod_eq_zero_of_dvd h]
      rfl
  · simp [hp]

example : checkAlignment 4#64 0x1020#64 8#64 = true ∧ checkAlignment 4#64 0x1010#64 8#64 = false := by decide

/-- **C18.** `nextAlignedSize( n, a )` is the smallest multiple of `a` that is not below `n`, and `n` for `a = 0`. -/
theorem nextAlignedSize_spec (n a : Nat) :
    (a = 0 → nextAlignedSize n a = n) ∧
    (0 < a → n ≤ nextAlignedSize n a ∧ a ∣ nextAlignedSize n a ∧ ∀ m, n ≤ m → a ∣ m → nextAlignedSize n a ≤ m) := by
  unfold nextAlignedSize
  refine ⟨fun h => by simp [h], fun ha => ?_⟩
  rw [if_neg (by omega)]
  simp only
  have hdm := Nat.div_add_mod n a
  split_ifs with h
  · exact ⟨le_rfl, Nat.dvd_of_mod_eq_zero h, fun m hm _ => hm⟩
  · have hlt := Nat.mod_lt n ha
    have e : (n / a + 1) * a = a * (n / a) + a := by ring
    refine ⟨by omega, Nat.dvd_mul_left _ _, ?_⟩
    rintro m hm ⟨q, rfl⟩
    have : n / a < q := by
      by_contra hc
      have := Nat.mul_le_mul_left a (Nat.le_of_not_lt hc)
      omega
    have := Nat.mul_le_mul_left a this
    have e2 : a * (n / a).succ = a * (n / a) + a := by rw [Nat.mul_succ]
    omega

example : nextAlignedSize 13 8 = 16 ∧ nextAlignedSize 16 8 = 16 ∧ nextAlignedSize 5 0 = 5 := by decide

/-! ## Arrays -/

/-- What a user may rely on for an array: an empty array owns nothing; a non-empty array hands out memory for all of its
elements, correctly aligned, inside the block it owns. -/
def ArrOK (ty : Elem) (a : Arr) : Prop :=
  (∃ k, a.alignment = 2 ^ k) ∧ a.alignment * ty.size < 2 ^ 63 ∧
  ((a.raw = none ∧ a.data = none ∧ a.length = 0) ∨
   ∃ b d, a.raw = some b ∧ a.data = some d ∧ a.alignment * ty.size ∣ d ∧ b.addr ≤ d ∧
     d + a.length * ty.size ≤ b.addr + b.bytes)

/-- Every live heap block belongs to exactly one array and every block of an array is live. -/
structure Owned (p : Prog) : Prop where
  live : ∀ i a b, p.objs i = some a → a.raw = some b → b.serial ∈ p.heap
  unique : ∀ i j a a' b b', p.objs i = some a → p.objs j = some a' → a.raw = some b → a'.raw = some b' →
    b.serial = b'.serial → i = j
  noLeak : ∀ s ∈ p.heap, ∃ i a b, p.objs i = some a ∧ a.raw = some b ∧ b.serial = s
  nodup : p.heap.Nodup
  fresh : ∀ s ∈ p.heap, s < p.next

/-- Requests and allocator answers assumed: addresses respect the type's alignment and sizes do not exceed the address
space. -/
def OpOK (ty : Elem) : ArrOp → Prop
  | .create _ length alignment addr =>
    length * ty.size < 2 ^ 63 ∧ alignment * ty.size < 2 ^ 63 ∧ ∀ p, addr = some p → ty.align ∣ p
  | .resize _ length addr => length * ty.size < 2 ^ 63 ∧ ∀ p, addr = some p → ty.align ∣ p
  | _ => True

theorem stdAlign_spec {A size p space g : Nat} (hA : 0 < A) (hgA : g ∣ A) (hgp : g ∣ p)
    (hfit : size + A ≤ space + g) :
    A ∣ stdAlign A size p space ∧ p ≤ stdAlign A size p space ∧ stdAlign A size p space + size ≤ p + space := by
  have hdm := Nat.div_add_mod (p + A - 1) A
  have hlt := Nat.mod_lt (p + A - 1) hA
  set q := (p + A - 1) / A
  have e : q * A = A * q := Nat.mul_comm _ _
  have hle : p ≤ q * A := by omega
  have hup : q * A + g ≤ p + A := by
    obtain ⟨x, hx⟩ := hgA
    obtain ⟨y, hy⟩ := hgp
    have hlt' : q * A < p + A := by omega
    have e1 : q * A = g * (q * x) := by rw [hx]; ring
    have e2 : p + A = g * (y + x) := by rw [hx, hy]; ring
    rw [e1, e2] at hlt' ⊢
    have h1 : q * x < y + x := Nat.lt_of_mul_lt_mul_left hlt'
    have h2 := Nat.mul_le_mul_left g h1
    have : g * (q * x).succ = g * (q * x) + g := Nat.mul_succ _ _
    omega
  unfold stdAlign
  simp only
  change A ∣ (if q * A + size ≤ p + space then q * A else p) ∧ _
  rw [if_pos (by omega)]
  exact ⟨Nat.dvd_mul_left _ _, hle, by omega⟩

/-- Element types of the library: `sizeof` is a power of two (as `std::align` requires) and a multiple of `alignof`. -/
def Elem.OK (ty : Elem) : Prop := (∃ j, ty.size = 2 ^ j) ∧ ty.size < 2 ^ 63 ∧ ty.align ∣ ty.size

theorem Elem.OK.pos {ty : Elem} (h : ty.OK) : 0 < ty.size := by
  obtain ⟨⟨j, hj⟩, _⟩ := h; rw [hj]; exact Nat.two_pow_pos j

theorem allocate_ok {ty : Elem} (hty : ty.OK) {heap : List Nat} {serial : Nat} {a : Arr} {length addr : Nat}
    (hk : ∃ k, a.alignment = 2 ^ k) (hlen : length * ty.size < 2 ^ 63) (halign : a.alignment * ty.size < 2 ^ 63)
    (haddr : ty.align ∣ addr) :
    ∃ a', allocate ty heap serial a length (some addr) = .ok (serial :: heap, a') ∧ ArrOK ty a' ∧
      a'.alignment = a.alignment ∧ a'.length = length ∧ ∃ b, a'.raw = some b ∧ b.serial = serial := by
  have hs := hty.pos
  have hdv := hty.2.2
  have hapos : 0 < a.alignment := by obtain ⟨k, hk⟩ := hk; rw [hk]; exact Nat.two_pow_pos k
  have hwrap : (length + a.alignment) * ty.size < 2 ^ 64 := by rw [Nat.add_mul]; omega
  have hle : ∀ n, n ≤ length + a.alignment → n * ty.size < 2 ^ 64 := fun n hn =>
    lt_of_le_of_lt (Nat.mul_le_mul_right _ hn) hwrap
  have hle1 : length + a.alignment < 2 ^ 64 := lt_of_le_of_lt (Nat.le_mul_of_pos_right _ hs) hwrap
  have w1 : wrap (length + a.alignment) = length + a.alignment := Nat.mod_eq_of_lt hle1
  have w2 : wrap (length + a.alignment - 1) = length + a.alignment - 1 := Nat.mod_eq_of_lt (by omega)
  have w3 : wrap (a.alignment * ty.size) = a.alignment * ty.size := Nat.mod_eq_of_lt (hle _ (by omega))
  have w4 : wrap (length * ty.size) = length * ty.size := Nat.mod_eq_of_lt (hle _ (by omega))
  have w5 : wrap ((length + a.alignment) * ty.size) = (length + a.alignment) * ty.size := Nat.mod_eq_of_lt hwrap
  have w6 : wrap ((length + a.alignment - 1) * ty.size) = (length + a.alignment - 1) * ty.size :=
    Nat.mod_eq_of_lt (hle _ (by omega))
  have hA : 0 < a.alignment * ty.size := Nat.mul_pos hapos hs
  by_cases he : ty.align = ty.size
  · have hx := stdAlign_spec (A := a.alignment * ty.size) (size := length * ty.size) (p := addr)
      (space := (length + a.alignment - 1) * ty.size) (g := ty.size) hA (Nat.dvd_mul_left _ _) (he ▸ haddr) (by
        have : (length + a.alignment - 1) * ty.size + ty.size = (length + a.alignment) * ty.size := by
          rw [← Nat.succ_mul]; congr 1; omega
        rw [this]; exact (Nat.add_mul _ _ _).ge)
    refine ⟨⟨a.alignment, length, some ⟨serial, addr, (length + a.alignment - 1) * ty.size⟩, some (stdAlign
      (a.alignment * ty.size) (length * ty.size) addr ((length + a.alignment - 1) * ty.size))⟩,
      by simp only [allocate, he, if_true, w2, w3, w4, w6], ?_, rfl, rfl, _, rfl, rfl⟩
    exact ⟨hk, halign, Or.inr ⟨_, _, rfl, rfl, hx⟩⟩
  · have hx := stdAlign_spec (A := a.alignment * ty.size) (size := length * ty.size) (p := addr)
      (space := (length + a.alignment) * ty.size) (g := ty.align) hA (Dvd.dvd.mul_left hdv _) haddr (by
        have := Nat.add_mul length a.alignment ty.size
        omega)
    refine ⟨⟨a.alignment, length, some ⟨serial, addr, (length + a.alignment) * ty.size⟩, some (stdAlign
      (a.alignment * ty.size) (length * ty.size) addr ((length + a.alignment) * ty.size))⟩,
      by simp only [allocate, he, if_false, w1, w3, w4, w5], ?_, rfl, rfl, _, rfl, rfl⟩
    exact ⟨hk, halign, Or.inr ⟨_, _, rfl, rfl, hx⟩⟩

theorem empty_ok {alignment : Nat} (h64 : alignment < 2 ^ 64) {a : Arr} (h : Arr.empty alignment = .ok a) :
    (∃ k, a.alignment = 2 ^ k) ∧ a.alignment = (if alignment = 0 then 1 else alignment) ∧ a.raw = none ∧ a.data = none
      ∧ a.length = 0 := by
  unfold Arr.empty at h
  simp only at h
  by_cases h2 : alignmentIsPowerOfTwo (BitVec.ofNat 64 (if alignment = 0 then 1 else alignment)) = true
  · simp only [h2, Bool.not_true, Bool.false_eq_true, if_false] at h
    injection h with h; subst h
    obtain ⟨k, hk⟩ := (alignmentIsPowerOfTwo_iff _).mp h2
    rw [BitVec.toNat_ofNat, Nat.mod_eq_of_lt (by split_ifs <;> omega)] at hk
    exact ⟨⟨k, hk⟩, rfl, rfl, rfl, rfl⟩
  · simp [h2] at h

/-- The invariant of all programs. -/
def Inv (ty : Elem) (p : Prog) : Prop := (∀ i a, p.objs i = some a → ArrOK ty a) ∧ Owned p

theorem inv_set_noraw {ty : Elem} {p : Prog} (h : Inv ty p) {i : Nat} {a : Arr} (hi : p.objs i = some a) {o : Option Arr}
    (ho : ∀ a', o = some a' → a'.raw = none ∧ ArrOK ty a') :
    ∃ heap, deallocate p.heap a = .ok (heap, ⟨a.alignment, 0, none, none⟩) ∧
      Inv ty { p.set i o with heap := heap } := by
  obtain ⟨hok, hlive, huniq, hleak, hnd, hfresh⟩ := h
  unfold deallocate
  cases hr : a.raw with
  | none =>
    refine ⟨p.heap, rfl, ?_, ?_, ?_, ?_, hnd, hfresh⟩
    · intro k x hk
      simp only [Prog.set] at hk
      split_ifs at hk with hki
      · exact (ho x hk).2
      · exact hok k x hk
    · intro k x b hk hb
      simp only [Prog.set] at hk
      split_ifs at hk with hki
      · have := (ho x hk).1; rw [hb] at this; cases this
      · exact hlive k x b hk hb
    · intro k l x y b c hk hl hb hc he
      simp only [Prog.set] at hk hl
      split_ifs at hk hl with h1 h2 h2
      · omega
      · have := (ho x hk).1; rw [hb] at this; cases this
      · have := (ho y hl).1; rw [hc] at this; cases this
      · exact huniq k l x y b c hk hl hb hc he
    · intro s hs
      obtain ⟨k, x, b, hk, hb, he⟩ := hleak s hs
      refine ⟨k, x, b, ?_, hb, he⟩
      simp only [Prog.set]
      rw [if_neg]
      · exact hk
      · rintro rfl; rw [hi] at hk; injection hk with hk; rw [← hk, hr] at hb; cases hb
  | some b0 =>
    have hm := hlive i a b0 hi hr
    simp only [hm, if_true]
    refine ⟨_, rfl, ?_, ?_, ?_, ?_, hnd.erase _, fun s hs => hfresh s (List.mem_of_mem_erase hs)⟩
    · intro k x hk
      simp only [Prog.set] at hk
      split_ifs at hk with hki
      · exact (ho x hk).2
      · exact hok k x hk
    · intro k x b hk hb
      simp only [Prog.set] at hk
      split_ifs at hk with hki
      · have := (ho x hk).1; rw [hb] at this; cases this
      · show b.serial ∈ p.heap.erase b0.serial
        rw [hnd.mem_erase_iff]
        exact ⟨fun he => hki (huniq k i x a b b0 hk hi hb hr he), hlive k x b hk hb⟩
    · intro k l x y b c hk hl hb hc he
      simp only [Prog.set] at hk hl
      split_ifs at hk hl with h1 h2 h2
      · omega
      · have := (ho x hk).1; rw [hb] at this; cases this
      · have := (ho y hl).1; rw [hc] at this; cases this
      · exact huniq k l x y b c hk hl hb hc he
    · intro s hs
      have hs2 : s ∈ p.heap.erase b0.serial := hs
      rw [hnd.mem_erase_iff] at hs2
      obtain ⟨k, x, b, hk, hb, he⟩ := hleak s hs2.2
      refine ⟨k, x, b, ?_, hb, he⟩
      simp only [Prog.set]
      rw [if_neg]
      · exact hk
      · rintro rfl; rw [hi] at hk; injection hk with hk; rw [← hk, hr] at hb; injection hb with hb
        exact hs2.1 (by rw [← he, hb])

theorem inv_set_fresh {ty : Elem} {p : Prog} (h : Inv ty p) {i : Nat} {a : Arr} {b : Block} (hb : a.raw = some b)
    (hs : b.serial = p.next) (hok' : ArrOK ty a) (hi : ∀ x, p.objs i = some x → x.raw = none) :
    Inv ty { p.set i (some a) with heap := p.next :: p.heap, next := p.next + 1 } := by
  obtain ⟨hok, hlive, huniq, hleak, hnd, hfresh⟩ := h
  refine ⟨?_, ?_, ?_, ?_, ?_, ?_⟩
  · intro k x hk
    simp only [Prog.set] at hk
    split_ifs at hk with hki
    · injection hk with hk; rwa [← hk]
    · exact hok k x hk
  · intro k x c hk hc
    simp only [Prog.set] at hk
    split_ifs at hk with hki
    · injection hk with hk; rw [← hk, hb] at hc; injection hc with hc
      show c.serial ∈ p.next :: p.heap
      rw [← hc, hs]; exact List.mem_cons_self
    · exact List.mem_cons_of_mem _ (hlive k x c hk hc)
  · intro k l x y c d hk hl hc hd he
    simp only [Prog.set] at hk hl
    split_ifs at hk hl with h1 h2 h2
    · omega
    · injection hk with hk; rw [← hk, hb] at hc; injection hc with hc
      have := hfresh _ (hlive l y d hl hd)
      rw [← he, ← hc, hs] at this; omega
    · injection hl with hl; rw [← hl, hb] at hd; injection hd with hd
      have := hfresh _ (hlive k x c hk hc)
      rw [he, ← hd, hs] at this; omega
    · exact huniq k l x y c d hk hl hc hd he
  · intro s hs'
    have hs' : s ∈ p.next :: p.heap := hs'
    rcases List.mem_cons.mp hs' with h1 | h1
    · exact ⟨i, a, b, by simp [Prog.set], hb, by rw [hs, h1]⟩
    · obtain ⟨k, x, c, hk, hc, he⟩ := hleak s h1
      refine ⟨k, x, c, ?_, hc, he⟩
      simp only [Prog.set]
      rw [if_neg]
      · exact hk
      · rintro rfl; have := hi x hk; rw [hc] at this; cases this
  · exact List.nodup_cons.mpr ⟨fun hm => absurd (hfresh _ hm) (by omega), hnd⟩
  · intro s hs'
    have hs' : s ∈ p.next :: p.heap := hs'
    rcases List.mem_cons.mp hs' with h1 | h1
    · show s < p.next + 1; omega
    · have := hfresh s h1; show s < p.next + 1; omega

theorem inv_swap {ty : Elem} {p : Prog} (h : Inv ty p) {i j : Nat} {a b : Arr} (hi : p.objs i = some a)
    (hj : p.objs j = some b) (hal : a.alignment = b.alignment) : Inv ty (swapMembers p i j a b) := by
  obtain ⟨hok, hlive, huniq, hleak, hnd, hfresh⟩ := h
  -- the content of a name after the swap is that of a permuted name before
  let σ : Nat → Nat := fun k => if k = j then i else if k = i then j else k
  have hσ : ∀ k x, (swapMembers p i j a b).objs k = some x → ∃ y, p.objs (σ k) = some y ∧ y.alignment = x.alignment ∧
      y.length = x.length ∧ y.raw = x.raw ∧ y.data = x.data := by
    intro k x hk
    simp only [swapMembers, Prog.set] at hk
    simp only [σ]
    split_ifs at hk ⊢ with h1 h2
    · injection hk with hk; subst hk; exact ⟨a, hi, hal, rfl, rfl, rfl⟩
    · injection hk with hk; subst hk; exact ⟨b, hj, hal.symm, rfl, rfl, rfl⟩
    · exact ⟨x, hk, rfl, rfl, rfl, rfl⟩
  have hinj : ∀ k l, σ k = σ l → k = l := by
    intro k l
    simp only [σ]
    split_ifs <;> omega
  have hback : ∀ k x, p.objs k = some x → ∃ y, (swapMembers p i j a b).objs (σ k) = some y ∧ y.raw = x.raw := by
    intro k x hk
    simp only [swapMembers, Prog.set, σ]
    by_cases h1 : k = j
    · subst h1
      rw [hj] at hk; injection hk with hk; subst hk
      by_cases h2 : i = k
      · subst h2
        rw [hi] at hj; injection hj with hj; subst hj
        exact ⟨_, by simp, rfl⟩
      · exact ⟨{ a with length := b.length, raw := b.raw, data := b.data }, by simp [h2], rfl⟩
    · by_cases h2 : k = i
      · subst h2
        rw [hi] at hk; injection hk with hk; subst hk
        exact ⟨{ b with length := a.length, raw := a.raw, data := a.data }, by simp [h1], rfl⟩
      · exact ⟨x, by simp [h1, h2, hk], rfl⟩
  refine ⟨?_, ?_, ?_, ?_, hnd, hfresh⟩
  · intro k x hk
    obtain ⟨y, hy, e1, e2, e3, e4⟩ := hσ k x hk
    have := hok _ y hy
    unfold ArrOK at this ⊢
    rwa [e1, e2, e3, e4] at this
  · intro k x c hk hc
    obtain ⟨y, hy, e1, e2, e3, e4⟩ := hσ k x hk
    exact hlive _ y c hy (by rw [e3, hc])
  · intro k l x y c d hk hl hc hd he
    obtain ⟨x', hx', _, _, e3, _⟩ := hσ k x hk
    obtain ⟨y', hy', _, _, f3, _⟩ := hσ l y hl
    exact hinj k l (huniq _ _ x' y' c d hx' hy' (by rw [e3, hc]) (by rw [f3, hd]) he)
  · intro s hs
    obtain ⟨k, x, c, hk, hc, he⟩ := hleak s hs
    obtain ⟨y, hy, e⟩ := hback k x hk
    exact ⟨σ k, y, c, hy, by rw [e, hc], he⟩

theorem arrOK_cleared {ty : Elem} {a : Arr} (h : ArrOK ty a) : ArrOK ty ⟨a.alignment, 0, none, none⟩ :=
  ⟨h.1, h.2.1, Or.inl ⟨rfl, rfl, rfl⟩⟩

theorem allocate_none {ty : Elem} {heap : List Nat} {serial : Nat} {a : Arr} {length : Nat} :
    allocate ty heap serial a length none = .throw .badAlloc := rfl

theorem inv_empty {ty : Elem} {p : Prog} (h : Inv ty p) {i : Nat} (hi : p.objs i = none) {a : Arr} (hr : a.raw = none)
    (ha : ArrOK ty a) : Inv ty (p.set i (some a)) := by
  obtain ⟨hok, hlive, huniq, hleak, hnd, hfresh⟩ := h
  refine ⟨?_, ?_, ?_, ?_, hnd, hfresh⟩
  · intro k x hk
    simp only [Prog.set] at hk
    split_ifs at hk with hki
    · injection hk with hk; rwa [← hk]
    · exact hok k x hk
  · intro k x c hk hc
    simp only [Prog.set] at hk
    split_ifs at hk with hki
    · injection hk with hk; rw [← hk, hr] at hc; cases hc
    · exact hlive k x c hk hc
  · intro k l x y c d hk hl hc hd he
    simp only [Prog.set] at hk hl
    split_ifs at hk hl with h1 h2 h2
    · omega
    · injection hk with hk; rw [← hk, hr] at hc; cases hc
    · injection hl with hl; rw [← hl, hr] at hd; cases hd
    · exact huniq k l x y c d hk hl hc hd he
  · intro s hs
    obtain ⟨k, x, c, hk, hc, he⟩ := hleak s hs
    refine ⟨k, x, c, ?_, hc, he⟩
    simp only [Prog.set]
    rw [if_neg]
    · exact hk
    · rintro rfl; rw [hi] at hk; cases hk

theorem arrStep_inv {ty : Elem} (hty : ty.OK) {p : Prog} (h : Inv ty p) (op : ArrOp) (hop : OpOK ty op) :
    Inv ty (arrStep ty p op).1 ∧ (arrStep ty p op).2 ≠ .ub := by
  cases op with
  | create i length alignment addr =>
    simp only [arrStep]
    obtain ⟨ho1, ho2, ho3⟩ := hop
    cases hi : p.objs i with
    | some a => exact ⟨h, by simp⟩
    | none =>
      simp only
      have h64 : alignment < 2 ^ 64 := by
        have := Nat.le_mul_of_pos_right alignment hty.pos; omega
      cases he : Arr.empty alignment with
      | throw e => exact ⟨h, by simp⟩
      | ub => unfold Arr.empty at he; simp only at he; split_ifs at he
      | ok a =>
        obtain ⟨e1, e2, e3, e4, e5⟩ := empty_ok h64 he
        have hal : a.alignment * ty.size < 2 ^ 63 := by
          rw [e2]; split_ifs
          · have := hty.2.1; omega
          · exact ho2
        simp only
        split_ifs with hlen
        · cases addr with
          | none => simp only [allocate_none]; exact ⟨h, by simp⟩
          | some q =>
            obtain ⟨a', g1, g2, g3, g4, b, g5, g6⟩ := allocate_ok hty (heap := p.heap) (serial := p.next) e1 ho1 hal
              (ho3 q rfl)
            rw [g1]
            exact ⟨inv_set_fresh h g5 g6 g2 (by intro x hx; rw [hi] at hx; cases hx), by simp⟩
        · exact ⟨inv_empty h hi e3 ⟨e1, hal, Or.inl ⟨e3, e4, e5⟩⟩, by simp⟩
  | resize i length addr =>
    simp only [arrStep]
    obtain ⟨ho1, ho3⟩ := hop
    cases hi : p.objs i with
    | none => exact ⟨h, by simp⟩
    | some a =>
      have ha := h.1 i a hi
      obtain ⟨heap, hd, hinv⟩ := inv_set_noraw h hi (o := some ⟨a.alignment, 0, none, none⟩)
        (by intro a' ha'; injection ha' with ha'; subst ha'; exact ⟨rfl, arrOK_cleared ha⟩)
      simp only [hd]
      split_ifs with hlen
      · cases addr with
        | none => simp only [allocate_none]; exact ⟨hinv, by simp⟩
        | some q =>
          obtain ⟨a', g1, g2, g3, g4, b, g5, g6⟩ := allocate_ok hty (heap := heap) (serial := p.next)
            (a := ⟨a.alignment, 0, none, none⟩) ha.1 ho1 ha.2.1 (ho3 q rfl)
          rw [g1]
          exact ⟨inv_set_fresh hinv g5 g6 g2 (by intro x hx; simp [Prog.set] at hx; rw [← hx]), by simp⟩
      · exact ⟨hinv, by simp⟩
  | swap i j =>
    simp only [arrStep]
    cases hi : p.objs i with
    | none => exact ⟨h, by simp⟩
    | some a =>
      cases hj : p.objs j with
      | none => exact ⟨h, by simp⟩
      | some b =>
        simp only
        split_ifs with hal
        · exact ⟨h, by simp⟩
        · exact ⟨inv_swap h hi hj (by simpa using hal), by simp⟩
  | moveAssign i j =>
    simp only [arrStep]
    cases hi : p.objs i with
    | none => exact ⟨h, by simp⟩
    | some a =>
      cases hj : p.objs j with
      | none => exact ⟨h, by simp⟩
      | some b =>
        simp only
        split_ifs with hal
        · exact ⟨h, by simp⟩
        · have hs := inv_swap h hi hj (by simpa using hal)
          have hjs : (swapMembers p i j a b).objs j = some { b with length := a.length, raw := a.raw, data := a.data } := by
            simp [swapMembers, Prog.set]
          obtain ⟨heap, hd, hinv⟩ := inv_set_noraw hs hjs (o := some ⟨b.alignment, 0, none, none⟩)
            (by intro a' ha'; injection ha' with ha'; subst ha'; exact ⟨rfl, arrOK_cleared (h.1 j b hj)⟩)
          rw [hd]
          exact ⟨hinv, by simp⟩
  | moveConstruct i j =>
    simp only [arrStep]
    cases hi : p.objs i with
    | some a => exact ⟨h, by simp⟩
    | none =>
      cases hj : p.objs j with
      | none => exact ⟨h, by simp⟩
      | some b =>
        simp only
        have hb := h.1 j b hj
        have h64 : b.alignment < 2 ^ 64 := by
          have := Nat.le_mul_of_pos_right b.alignment hty.pos; have := hb.2.1; omega
        cases he : Arr.empty b.alignment with
        | throw e => exact ⟨h, by simp⟩
        | ub => unfold Arr.empty at he; simp only at he; split_ifs at he
        | ok a =>
          obtain ⟨e1, e2, e3, e4, e5⟩ := empty_ok h64 he
          have hbpos : b.alignment ≠ 0 := by
            obtain ⟨k, hk⟩ := hb.1; rw [hk]; exact (Nat.two_pow_pos k).ne'
          rw [if_neg hbpos] at e2
          have hij : j ≠ i := by rintro rfl; rw [hi] at hj; cases hj
          refine ⟨inv_swap (inv_empty h hi e3 ⟨e1, by rw [e2]; exact hb.2.1, Or.inl ⟨e3, e4, e5⟩⟩) ?_ ?_ e2, by simp⟩
          · simp [Prog.set]
          · simp [Prog.set, hij, hj]
  | destroy i =>
    simp only [arrStep]
    cases hi : p.objs i with
    | none => exact ⟨h, by simp⟩
    | some a =>
      obtain ⟨heap, hd, hinv⟩ := inv_set_noraw h hi (o := none) (by intro a' ha'; cases ha')
      simp only [hd]
      exact ⟨hinv, by simp⟩

/-- **C18.** For every element type of the library, every program that creates, resizes, swaps, moves and destroys
aligned arrays, and every behaviour of the allocator (including failures), no operation has undefined behaviour, every
array hands out correctly aligned memory for all of its elements inside its own block, and blocks are neither shared,
nor leaked, nor freed twice. -/
theorem alignedArray_safe (ty : Elem) (hty : ty.OK) (ops : List ArrOp) (hops : ∀ op ∈ ops, OpOK ty op) :
    (∀ o ∈ (run (arrStep ty) Prog.init ops).2, o ≠ .ub) ∧
    (∀ i a, (final (arrStep ty) Prog.init ops).objs i = some a → ArrOK ty a) ∧
    Owned (final (arrStep ty) Prog.init ops) := by
  have key : ∀ (ops : List ArrOp) (p : Prog), Inv ty p → (∀ op ∈ ops, OpOK ty op) →
      (∀ o ∈ (run (arrStep ty) p ops).2, o ≠ .ub) ∧ Inv ty (final (arrStep ty) p ops) := by
    intro ops
    induction ops with
    | nil => intro p hp _; exact ⟨by simp [run], hp⟩
    | cons op ops ih =>
      intro p hp ho
      obtain ⟨h1, h2⟩ := arrStep_inv hty hp op (ho op (by simp))
      obtain ⟨h3, h4⟩ := ih _ h1 (fun o hm => ho o (by simp [hm]))
      refine ⟨?_, h4⟩
      intro o hm
      simp only [run, List.mem_cons] at hm
      rcases hm with rfl | hm
      · exact h2
      · exact h3 o hm
  have h0 : Inv ty Prog.init := by
    refine ⟨?_, ?_, ?_, ?_, ?_, ?_⟩ <;> simp [Prog.init]
  obtain ⟨h1, h2⟩ := key ops _ h0 hops
  exact ⟨h1, h2.1, h2.2⟩

/-- **C18.** Creation and resizing yield the requested size and alignment; alignments that are neither 0 nor a power of
two are rejected without any effect. -/
theorem alignedArray_create (ty : Elem) (p : Prog) (i length alignment : Nat) (addr : Option Nat)
    (h64 : alignment < 2 ^ 64) (hi : p.objs i = none) :
    (¬ (alignment = 0 ∨ ∃ k, alignment = 2 ^ k) →
      arrStep ty p (.create i length alignment addr) = (p, .throw .invalidArgument)) ∧
    ((alignment = 0 ∨ ∃ k, alignment = 2 ^ k) → (length = 0 ∨ addr ≠ none) →
      (arrStep ty p (.create i length alignment addr)).2 = .ok () ∧
      ∃ a, (arrStep ty p (.create i length alignment addr)).1.objs i = some a ∧ a.length = length ∧
        a.alignment = max alignment 1) := by
  have hiff : alignmentIsPowerOfTwo (BitVec.ofNat 64 (if alignment = 0 then 1 else alignment)) = true ↔
      (alignment = 0 ∨ ∃ k, alignment = 2 ^ k) := by
    rw [alignmentIsPowerOfTwo_iff, BitVec.toNat_ofNat, Nat.mod_eq_of_lt (by split_ifs <;> omega)]
    split_ifs with h
    · exact ⟨fun _ => Or.inl h, fun _ => ⟨0, rfl⟩⟩
    · simp [h]
  constructor
  · intro hn
    have : ¬ alignmentIsPowerOfTwo (BitVec.ofNat 64 (if alignment = 0 then 1 else alignment)) = true :=
      fun h => hn (hiff.mp h)
    simp [arrStep, hi, Arr.empty, this]
  · intro hy hl
    have hp := hiff.mpr hy
    have hmax : (if alignment = 0 then 1 else alignment) = max alignment 1 := by split_ifs <;> omega
    rw [hmax] at hp
    rcases Nat.eq_zero_or_pos length with h0 | hpos
    · subst h0
      simp [arrStep, hi, Arr.empty, hp, Prog.set, hmax]
    · obtain ⟨q, rfl⟩ : ∃ q, addr = some q := by
        rcases hl with h | h
        · omega
        · exact Option.ne_none_iff_exists'.mp h
      simp [arrStep, hi, Arr.empty, hp, hpos, Prog.set, hmax, allocate]

/-- **C18.** Resizing an array of a reachable program gives it the requested size and keeps its alignment; if the
allocation fails, the array is left empty. Other arrays are not affected. -/
theorem alignedArray_resize (ty : Elem) (hty : ty.OK) (ops : List ArrOp) (hops : ∀ op ∈ ops, OpOK ty op)
    (i length : Nat) (addr : Option Nat) (a : Arr) (hi : (final (arrStep ty) Prog.init ops).objs i = some a) :
    let r := arrStep ty (final (arrStep ty) Prog.init ops) (.resize i length addr)
    (∀ k, k ≠ i → r.1.objs k = (final (arrStep ty) Prog.init ops).objs k) ∧
    (length = 0 ∨ addr ≠ none →
      r.2 = .ok () ∧ ∃ a', r.1.objs i = some a' ∧ a'.length = length ∧ a'.alignment = a.alignment) ∧
    (0 < length → addr = none → r.2 = .throw .badAlloc ∧ r.1.objs i = some ⟨a.alignment, 0, none, none⟩) := by
  obtain ⟨_, h2, h3⟩ := alignedArray_safe ty hty ops hops
  generalize final (arrStep ty) Prog.init ops = p at *
  obtain ⟨heap, hd, _⟩ := inv_set_noraw ⟨h2, h3⟩ hi (o := none) (by intro a' ha'; cases ha')
  refine ⟨?_, ?_, ?_⟩
  · intro k hk
    simp only [arrStep, hi, hd]
    by_cases hl : length > 0
    · cases addr <;> simp [hl, allocate, Prog.set, hk]
    · simp [hl, Prog.set, hk]
  · intro h
    simp only [arrStep, hi, hd]
    by_cases hl : length > 0
    · cases addr with
      | none => rcases h with h | h
                · omega
                · exact absurd rfl h
      | some q => simp [hl, allocate, Prog.set]
    · have : length = 0 := by omega
      simp [this, Prog.set]
  · intro hl ha
    subst ha
    simp [arrStep, hi, hd, hl, allocate, Prog.set]

/-- **C18.** Swapping exchanges the contents of two arrays of equal alignment and is rejected without effect otherwise. -/
theorem alignedArray_swap (ty : Elem) (p : Prog) (i j : Nat) (a b : Arr) (hij : i ≠ j) (hi : p.objs i = some a)
    (hj : p.objs j = some b) :
    (a.alignment ≠ b.alignment → arrStep ty p (.swap i j) = (p, .throw .logicError)) ∧
    (a.alignment = b.alignment → (arrStep ty p (.swap i j)).2 = .ok () ∧
      (arrStep ty p (.swap i j)).1.objs i = some b ∧ (arrStep ty p (.swap i j)).1.objs j = some a) := by
  constructor
  · intro h; simp [arrStep, hi, hj, h]
  · intro h
    have ha : a = ⟨b.alignment, a.length, a.raw, a.data⟩ := by cases a; cases b; simp_all
    refine ⟨by simp [arrStep, hi, hj, h], ?_, ?_⟩
    · simp [arrStep, hi, hj, h, swapMembers, Prog.set, hij]
    · simp [arrStep, hi, hj, h, swapMembers, Prog.set]; exact ha.symm

/-- A concrete history: two arrays of eight-byte elements, a swap, a move and a resize. -/
example : OpOK ⟨8, 8⟩ (.create 0 5 4 (some 0x1008)) ∧
    (final (arrStep ⟨8, 8⟩) Prog.init [.create 0 5 4 (some 0x1008), .create 1 3 4 (some 0x2010), .swap 0 1,
      .moveAssign 0 1, .resize 1 7 (some 0x3018)]).objs 0
    = some ⟨4, 5, some ⟨0, 0x1008, 64⟩, some 0x1020⟩ := by
  refine ⟨⟨by decide, by decide, ?_⟩, by decide⟩
  intro p hp; injection hp with hp; subst hp; decide

/-- Sizes at the end of the address space wrap around: an array of `2^64 - 1` bytes with alignment 2 is created from a
block of zero bytes. -/
theorem alignedArray_wraps (p : Prog) (i addr : Nat) (hi : p.objs i = none) :
    ∃ a, (arrStep ⟨1, 1⟩ p (.create i (2 ^ 64 - 1) 2 (some addr))).1.objs i = some a ∧ a.length = 2 ^ 64 - 1 ∧
      a.raw = some ⟨p.next, addr, 0⟩ := by
  refine ⟨⟨2, 2 ^ 64 - 1, some ⟨p.next, addr, 0⟩, some (stdAlign 2 (2 ^ 64 - 1) addr 0)⟩, ?_, rfl, rfl⟩
  have : alignmentIsPowerOfTwo 2#64 = true := by decide
  simp [arrStep, hi, Arr.empty, this, allocate, Prog.set, wrap]

end Visr.Efl
