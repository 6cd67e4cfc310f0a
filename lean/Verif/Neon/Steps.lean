import Verif.Neon.Lemmas

/-!
# Each step of the NEON functions computes its elements
-/

namespace Visr.Neon
open Visr Simd

variable {K : Type} [CommRing K]

set_option linter.unusedSimpArgs false

theorem vectorAdd4_ok (a : Args K) (m : Memory K) (hacc : Accessible (⟨.add, false, false⟩ : Fn) a m) (hs : Separate (⟨.add, false, false⟩ : Fn) a) (off : Nat)
    (h : off + 4 ≤ a.n) : vectorAdd4 ⟨a.p1 + off, a.p2 + off, 0, a.y + off⟩ (written (⟨.add, false, false⟩ : Fn) a m off) =
      .ok (⟨a.p1 + (off + 4), a.p2 + (off + 4), 0, a.y + (off + 4)⟩, written (⟨.add, false, false⟩ : Fn) a m (off + 4)) := by
  unfold vectorAdd4
  dsimp only
  rw [vld1_real rfl hacc (p := a.p1) (by simp [vectors, Op.arity]) h, Outcome.ok_bind, vld1_real rfl hacc (p := a.p2) (by simp [vectors, Op.arity]) h, Outcome.ok_bind]
  rw [vst1_real (fn := (⟨.add, false, false⟩ : Fn)) rfl hacc h _ (by
    intro i hi
    simp only [vadd, vmul, vmla, dup]
    rw [read_real rfl hs (p := a.p1) (by simp [vectors, Op.arity]) (by omega), read_real rfl hs (p := a.p2) (by simp [vectors, Op.arity]) (by omega)]
    simp only [realResult, formula, operand, Op.arity, Nat.add_zero]
    simp; try ring), Outcome.ok_bind, Outcome.pure_eq]
  simp only [Nat.add_assoc]

theorem vectorAdd2_ok (a : Args K) (m : Memory K) (hacc : Accessible (⟨.add, false, false⟩ : Fn) a m) (hs : Separate (⟨.add, false, false⟩ : Fn) a) (off : Nat)
    (h : off + 2 ≤ a.n) : vectorAdd2 ⟨a.p1 + off, a.p2 + off, 0, a.y + off⟩ (written (⟨.add, false, false⟩ : Fn) a m off) =
      .ok (⟨a.p1 + (off + 2), a.p2 + (off + 2), 0, a.y + (off + 2)⟩, written (⟨.add, false, false⟩ : Fn) a m (off + 2)) := by
  unfold vectorAdd2
  dsimp only
  rw [vld1_real rfl hacc (p := a.p1) (by simp [vectors, Op.arity]) h, Outcome.ok_bind, vld1_real rfl hacc (p := a.p2) (by simp [vectors, Op.arity]) h, Outcome.ok_bind]
  rw [vst1_real (fn := (⟨.add, false, false⟩ : Fn)) rfl hacc h _ (by
    intro i hi
    simp only [vadd, vmul, vmla, dup]
    rw [read_real rfl hs (p := a.p1) (by simp [vectors, Op.arity]) (by omega), read_real rfl hs (p := a.p2) (by simp [vectors, Op.arity]) (by omega)]
    simp only [realResult, formula, operand, Op.arity, Nat.add_zero]
    simp; try ring), Outcome.ok_bind, Outcome.pure_eq]
  simp only [Nat.add_assoc]

theorem vectorAdd1_ok (g : Garbage K) (a : Args K) (m : Memory K) (hacc : Accessible (⟨.add, false, false⟩ : Fn) a m) (hs : Separate (⟨.add, false, false⟩ : Fn) a) (off : Nat)
    (h : off + 1 ≤ a.n) : vectorAdd1 g ⟨a.p1 + off, a.p2 + off, 0, a.y + off⟩ (written (⟨.add, false, false⟩ : Fn) a m off) =
      .ok (⟨a.p1 + (off + 1), a.p2 + (off + 1), 0, a.y + (off + 1)⟩, written (⟨.add, false, false⟩ : Fn) a m (off + 1)) := by
  unfold vectorAdd1
  dsimp only
  rw [vld1Lane_real rfl hacc (p := a.p1) (by simp [vectors, Op.arity]) h, Outcome.ok_bind, vld1Lane_real rfl hacc (p := a.p2) (by simp [vectors, Op.arity]) h, Outcome.ok_bind]
  rw [vst1_real (fn := (⟨.add, false, false⟩ : Fn)) rfl hacc h _ (by
    intro i hi
    obtain rfl : i = 0 := by omega
    simp only [vadd, vmul, vmla, dup, if_true]
    rw [read_real0 rfl hs (p := a.p1) (by simp [vectors, Op.arity]) (by omega), read_real0 rfl hs (p := a.p2) (by simp [vectors, Op.arity]) (by omega)]
    simp only [realResult, formula, operand, Op.arity, Nat.add_zero]
    simp; try ring), Outcome.ok_bind, Outcome.pure_eq]
  simp only [Nat.add_assoc]

theorem vectorAdd_ok (debug : Bool) (g : Garbage K) (a : Args K) (m : Memory K) (hacc : Accessible (⟨.add, false, false⟩ : Fn) a m) (hs : Separate (⟨.add, false, false⟩ : Fn) a)
    (hc : debug = true → ∀ p ∈ vectors (⟨.add, false, false⟩ : Fn) a, check 1 p a.alignment = true) :
    vectorAdd debug g a.p1 a.p2 a.y a.n a.alignment m = .ok (.noError, written (⟨.add, false, false⟩ : Fn) a m a.n) := by
  unfold vectorAdd
  rw [checked_ok _ _ _ _ _ _ fun hd p hp => hc hd p (by revert hp; simp [vectors, Op.arity]; try tauto)]
  conv_lhs => rw [← written_zero (⟨.add, false, false⟩ : Fn) a m]
  exact run4_at _ _ _ (fun off => ⟨a.p1 + off, a.p2 + off, 0, a.y + off⟩) (written (⟨.add, false, false⟩ : Fn) a m) a.n (vectorAdd4_ok a m hacc hs) (vectorAdd2_ok a m hacc hs)
    (vectorAdd1_ok g a m hacc hs)

theorem cVectorAdd2_ok (a : Args K) (m : Memory K) (hacc : Accessible (⟨.add, false, true⟩ : Fn) a m) (hs : Separate (⟨.add, false, true⟩ : Fn) a) (off : Nat)
    (h : off + 2 ≤ a.n) : cVectorAdd2 ⟨a.p1 + 2 * off, a.p2 + 2 * off, 0, a.y + 2 * off⟩ (written (⟨.add, false, true⟩ : Fn) a m off) =
      .ok (⟨a.p1 + 2 * (off + 2), a.p2 + 2 * (off + 2), 0, a.y + 2 * (off + 2)⟩, written (⟨.add, false, true⟩ : Fn) a m (off + 2)) := by
  unfold cVectorAdd2
  dsimp only
  rw [vld1_complex (k := 4) rfl hacc (p := a.p1) (by simp [vectors, Op.arity]) (by omega), Outcome.ok_bind, vld1_complex (k := 4) rfl hacc (p := a.p2) (by simp [vectors, Op.arity]) (by omega), Outcome.ok_bind]
  rw [vst1_complex (w := 2) (fn := (⟨.add, false, true⟩ : Fn)) rfl hacc h _ (by
    intro j hj
    have e0 : 2 * j % 2 = 0 := by omega
    have e1 : ¬ (2 * j + 1) % 2 = 0 := by omega
    simp only [vadd, alternate, if_pos e0, if_neg e1, ← Nat.add_assoc]
    rw [read_re rfl hs (p := a.p1) (by simp [vectors, Op.arity]) (by omega), read_im rfl hs (p := a.p1) (by simp [vectors, Op.arity]) (by omega), read_re rfl hs (p := a.p2) (by simp [vectors, Op.arity]) (by omega), read_im rfl hs (p := a.p2) (by simp [vectors, Op.arity]) (by omega)]
    simp only [complexResult, formula, operand, Op.arity, Nat.add_zero, Cx.add_re, Cx.add_im, Cx.mul_re, Cx.mul_im]
    constructor <;> (simp; try ring)), Outcome.ok_bind, Outcome.pure_eq]
  simp only [Nat.mul_add, ← Nat.add_assoc]

theorem cVectorAdd1_ok (a : Args K) (m : Memory K) (hacc : Accessible (⟨.add, false, true⟩ : Fn) a m) (hs : Separate (⟨.add, false, true⟩ : Fn) a) (off : Nat)
    (h : off + 1 ≤ a.n) : cVectorAdd1 ⟨a.p1 + 2 * off, a.p2 + 2 * off, 0, a.y + 2 * off⟩ (written (⟨.add, false, true⟩ : Fn) a m off) =
      .ok (⟨a.p1 + 2 * (off + 1), a.p2 + 2 * (off + 1), 0, a.y + 2 * (off + 1)⟩, written (⟨.add, false, true⟩ : Fn) a m (off + 1)) := by
  unfold cVectorAdd1
  dsimp only
  rw [vld1_complex (k := 2) rfl hacc (p := a.p1) (by simp [vectors, Op.arity]) (by omega), Outcome.ok_bind, vld1_complex (k := 2) rfl hacc (p := a.p2) (by simp [vectors, Op.arity]) (by omega), Outcome.ok_bind]
  rw [vst1_complex (w := 1) (fn := (⟨.add, false, true⟩ : Fn)) rfl hacc h _ (by
    intro j hj
    have e0 : 2 * j % 2 = 0 := by omega
    have e1 : ¬ (2 * j + 1) % 2 = 0 := by omega
    simp only [vadd, alternate, if_pos e0, if_neg e1, ← Nat.add_assoc]
    rw [read_re rfl hs (p := a.p1) (by simp [vectors, Op.arity]) (by omega), read_im rfl hs (p := a.p1) (by simp [vectors, Op.arity]) (by omega), read_re rfl hs (p := a.p2) (by simp [vectors, Op.arity]) (by omega), read_im rfl hs (p := a.p2) (by simp [vectors, Op.arity]) (by omega)]
    simp only [complexResult, formula, operand, Op.arity, Nat.add_zero, Cx.add_re, Cx.add_im, Cx.mul_re, Cx.mul_im]
    constructor <;> (simp; try ring)), Outcome.ok_bind, Outcome.pure_eq]
  simp only [Nat.mul_add, ← Nat.add_assoc]

theorem cVectorAdd_ok (debug : Bool) (a : Args K) (m : Memory K) (hacc : Accessible (⟨.add, false, true⟩ : Fn) a m) (hs : Separate (⟨.add, false, true⟩ : Fn) a)
    (hc : debug = true → ∀ p ∈ vectors (⟨.add, false, true⟩ : Fn) a, check 2 p a.alignment = true) :
    cVectorAdd debug a.p1 a.p2 a.y a.n a.alignment m = .ok (.noError, written (⟨.add, false, true⟩ : Fn) a m a.n) := by
  unfold cVectorAdd
  rw [checked_ok _ _ _ _ _ _ fun hd p hp => hc hd p (by revert hp; simp [vectors, Op.arity]; try tauto)]
  conv_lhs => rw [← written_zero (⟨.add, false, true⟩ : Fn) a m]
  exact run2_at _ _ (fun off => ⟨a.p1 + 2 * off, a.p2 + 2 * off, 0, a.y + 2 * off⟩) (written (⟨.add, false, true⟩ : Fn) a m) a.n (cVectorAdd2_ok a m hacc hs) (cVectorAdd1_ok a m hacc hs)

theorem vectorAddInplace4_ok (a : Args K) (m : Memory K) (hacc : Accessible (⟨.add, true, false⟩ : Fn) a m) (hs : Separate (⟨.add, true, false⟩ : Fn) a) (off : Nat)
    (h : off + 4 ≤ a.n) : vectorAddInplace4 ⟨a.p1 + off, 0, 0, a.y + off⟩ (written (⟨.add, true, false⟩ : Fn) a m off) =
      .ok (⟨a.p1 + (off + 4), 0, 0, a.y + (off + 4)⟩, written (⟨.add, true, false⟩ : Fn) a m (off + 4)) := by
  unfold vectorAddInplace4
  dsimp only
  rw [vld1_real rfl hacc (p := a.p1) (by simp [vectors, Op.arity]) h, Outcome.ok_bind, vld1_real rfl hacc (p := a.y) (by simp [vectors, Op.arity]) h, Outcome.ok_bind]
  rw [vst1_real (fn := (⟨.add, true, false⟩ : Fn)) rfl hacc h _ (by
    intro i hi
    simp only [vadd, vmul, vmla, dup]
    rw [read_real rfl hs (p := a.p1) (by simp [vectors, Op.arity]) (by omega), read_real rfl hs (p := a.y) (by simp [vectors, Op.arity]) (by omega)]
    simp only [realResult, formula, operand, Op.arity, Nat.add_zero]
    simp; try ring), Outcome.ok_bind, Outcome.pure_eq]
  simp only [Nat.add_assoc]

theorem vectorAddInplace2_ok (a : Args K) (m : Memory K) (hacc : Accessible (⟨.add, true, false⟩ : Fn) a m) (hs : Separate (⟨.add, true, false⟩ : Fn) a) (off : Nat)
    (h : off + 2 ≤ a.n) : vectorAddInplace2 ⟨a.p1 + off, 0, 0, a.y + off⟩ (written (⟨.add, true, false⟩ : Fn) a m off) =
      .ok (⟨a.p1 + (off + 2), 0, 0, a.y + (off + 2)⟩, written (⟨.add, true, false⟩ : Fn) a m (off + 2)) := by
  unfold vectorAddInplace2
  dsimp only
  rw [vld1_real rfl hacc (p := a.p1) (by simp [vectors, Op.arity]) h, Outcome.ok_bind, vld1_real rfl hacc (p := a.y) (by simp [vectors, Op.arity]) h, Outcome.ok_bind]
  rw [vst1_real (fn := (⟨.add, true, false⟩ : Fn)) rfl hacc h _ (by
    intro i hi
    simp only [vadd, vmul, vmla, dup]
    rw [read_real rfl hs (p := a.p1) (by simp [vectors, Op.arity]) (by omega), read_real rfl hs (p := a.y) (by simp [vectors, Op.arity]) (by omega)]
    simp only [realResult, formula, operand, Op.arity, Nat.add_zero]
    simp; try ring), Outcome.ok_bind, Outcome.pure_eq]
  simp only [Nat.add_assoc]

theorem vectorAddInplace1_ok (g : Garbage K) (a : Args K) (m : Memory K) (hacc : Accessible (⟨.add, true, false⟩ : Fn) a m) (hs : Separate (⟨.add, true, false⟩ : Fn) a) (off : Nat)
    (h : off + 1 ≤ a.n) : vectorAddInplace1 g ⟨a.p1 + off, 0, 0, a.y + off⟩ (written (⟨.add, true, false⟩ : Fn) a m off) =
      .ok (⟨a.p1 + (off + 1), 0, 0, a.y + (off + 1)⟩, written (⟨.add, true, false⟩ : Fn) a m (off + 1)) := by
  unfold vectorAddInplace1
  dsimp only
  rw [vld1Lane_real rfl hacc (p := a.p1) (by simp [vectors, Op.arity]) h, Outcome.ok_bind, vld1Lane_real rfl hacc (p := a.y) (by simp [vectors, Op.arity]) h, Outcome.ok_bind]
  rw [vst1_real (fn := (⟨.add, true, false⟩ : Fn)) rfl hacc h _ (by
    intro i hi
    obtain rfl : i = 0 := by omega
    simp only [vadd, vmul, vmla, dup, if_true]
    rw [read_real0 rfl hs (p := a.p1) (by simp [vectors, Op.arity]) (by omega), read_real0 rfl hs (p := a.y) (by simp [vectors, Op.arity]) (by omega)]
    simp only [realResult, formula, operand, Op.arity, Nat.add_zero]
    simp; try ring), Outcome.ok_bind, Outcome.pure_eq]
  simp only [Nat.add_assoc]

theorem vectorAddInplace_ok (debug : Bool) (g : Garbage K) (a : Args K) (m : Memory K) (hacc : Accessible (⟨.add, true, false⟩ : Fn) a m) (hs : Separate (⟨.add, true, false⟩ : Fn) a)
    (hc : debug = true → ∀ p ∈ vectors (⟨.add, true, false⟩ : Fn) a, check 1 p a.alignment = true) :
    vectorAddInplace debug g a.p1 a.y a.n a.alignment m = .ok (.noError, written (⟨.add, true, false⟩ : Fn) a m a.n) := by
  unfold vectorAddInplace
  rw [checked_ok _ _ _ _ _ _ fun hd p hp => hc hd p (by revert hp; simp [vectors, Op.arity]; try tauto)]
  conv_lhs => rw [← written_zero (⟨.add, true, false⟩ : Fn) a m]
  exact run4_at _ _ _ (fun off => ⟨a.p1 + off, 0, 0, a.y + off⟩) (written (⟨.add, true, false⟩ : Fn) a m) a.n (vectorAddInplace4_ok a m hacc hs) (vectorAddInplace2_ok a m hacc hs)
    (vectorAddInplace1_ok g a m hacc hs)

theorem cVectorAddInplace2_ok (a : Args K) (m : Memory K) (hacc : Accessible (⟨.add, true, true⟩ : Fn) a m) (hs : Separate (⟨.add, true, true⟩ : Fn) a) (off : Nat)
    (h : off + 2 ≤ a.n) : cVectorAddInplace2 ⟨a.p1 + 2 * off, 0, 0, a.y + 2 * off⟩ (written (⟨.add, true, true⟩ : Fn) a m off) =
      .ok (⟨a.p1 + 2 * (off + 2), 0, 0, a.y + 2 * (off + 2)⟩, written (⟨.add, true, true⟩ : Fn) a m (off + 2)) := by
  unfold cVectorAddInplace2
  dsimp only
  rw [vld1_complex (k := 4) rfl hacc (p := a.p1) (by simp [vectors, Op.arity]) (by omega), Outcome.ok_bind, vld1_complex (k := 4) rfl hacc (p := a.y) (by simp [vectors, Op.arity]) (by omega), Outcome.ok_bind]
  rw [vst1_complex (w := 2) (fn := (⟨.add, true, true⟩ : Fn)) rfl hacc h _ (by
    intro j hj
    have e0 : 2 * j % 2 = 0 := by omega
    have e1 : ¬ (2 * j + 1) % 2 = 0 := by omega
    simp only [vadd, alternate, if_pos e0, if_neg e1, ← Nat.add_assoc]
    rw [read_re rfl hs (p := a.p1) (by simp [vectors, Op.arity]) (by omega), read_im rfl hs (p := a.p1) (by simp [vectors, Op.arity]) (by omega), read_re rfl hs (p := a.y) (by simp [vectors, Op.arity]) (by omega), read_im rfl hs (p := a.y) (by simp [vectors, Op.arity]) (by omega)]
    simp only [complexResult, formula, operand, Op.arity, Nat.add_zero, Cx.add_re, Cx.add_im, Cx.mul_re, Cx.mul_im]
    constructor <;> (simp; try ring)), Outcome.ok_bind, Outcome.pure_eq]
  simp only [Nat.mul_add, ← Nat.add_assoc]

theorem cVectorAddInplace1_ok (a : Args K) (m : Memory K) (hacc : Accessible (⟨.add, true, true⟩ : Fn) a m) (hs : Separate (⟨.add, true, true⟩ : Fn) a) (off : Nat)
    (h : off + 1 ≤ a.n) : cVectorAddInplace1 ⟨a.p1 + 2 * off, 0, 0, a.y + 2 * off⟩ (written (⟨.add, true, true⟩ : Fn) a m off) =
      .ok (⟨a.p1 + 2 * (off + 1), 0, 0, a.y + 2 * (off + 1)⟩, written (⟨.add, true, true⟩ : Fn) a m (off + 1)) := by
  unfold cVectorAddInplace1
  dsimp only
  rw [vld1_complex (k := 2) rfl hacc (p := a.p1) (by simp [vectors, Op.arity]) (by omega), Outcome.ok_bind, vld1_complex (k := 2) rfl hacc (p := a.y) (by simp [vectors, Op.arity]) (by omega), Outcome.ok_bind]
  rw [vst1_complex (w := 1) (fn := (⟨.add, true, true⟩ : Fn)) rfl hacc h _ (by
    intro j hj
    have e0 : 2 * j % 2 = 0 := by omega
    have e1 : ¬ (2 * j + 1) % 2 = 0 := by omega
    simp only [vadd, alternate, if_pos e0, if_neg e1, ← Nat.add_assoc]
    rw [read_re rfl hs (p := a.p1) (by simp [vectors, Op.arity]) (by omega), read_im rfl hs (p := a.p1) (by simp [vectors, Op.arity]) (by omega), read_re rfl hs (p := a.y) (by simp [vectors, Op.arity]) (by omega), read_im rfl hs (p := a.y) (by simp [vectors, Op.arity]) (by omega)]
    simp only [complexResult, formula, operand, Op.arity, Nat.add_zero, Cx.add_re, Cx.add_im, Cx.mul_re, Cx.mul_im]
    constructor <;> (simp; try ring)), Outcome.ok_bind, Outcome.pure_eq]
  simp only [Nat.mul_add, ← Nat.add_assoc]

theorem cVectorAddInplace_ok (debug : Bool) (a : Args K) (m : Memory K) (hacc : Accessible (⟨.add, true, true⟩ : Fn) a m) (hs : Separate (⟨.add, true, true⟩ : Fn) a)
    (hc : debug = true → ∀ p ∈ vectors (⟨.add, true, true⟩ : Fn) a, check 2 p a.alignment = true) :
    cVectorAddInplace debug a.p1 a.y a.n a.alignment m = .ok (.noError, written (⟨.add, true, true⟩ : Fn) a m a.n) := by
  unfold cVectorAddInplace
  rw [checked_ok _ _ _ _ _ _ fun hd p hp => hc hd p (by revert hp; simp [vectors, Op.arity]; try tauto)]
  conv_lhs => rw [← written_zero (⟨.add, true, true⟩ : Fn) a m]
  exact run2_at _ _ (fun off => ⟨a.p1 + 2 * off, 0, 0, a.y + 2 * off⟩) (written (⟨.add, true, true⟩ : Fn) a m) a.n (cVectorAddInplace2_ok a m hacc hs) (cVectorAddInplace1_ok a m hacc hs)

theorem vectorAddConstant4_ok (a : Args K) (m : Memory K) (hacc : Accessible (⟨.addConstant, false, false⟩ : Fn) a m) (hs : Separate (⟨.addConstant, false, false⟩ : Fn) a) (off : Nat)
    (h : off + 4 ≤ a.n) : vectorAddConstant4 a.c.re ⟨a.p1 + off, 0, 0, a.y + off⟩ (written (⟨.addConstant, false, false⟩ : Fn) a m off) =
      .ok (⟨a.p1 + (off + 4), 0, 0, a.y + (off + 4)⟩, written (⟨.addConstant, false, false⟩ : Fn) a m (off + 4)) := by
  unfold vectorAddConstant4
  dsimp only
  rw [vld1_real rfl hacc (p := a.p1) (by simp [vectors, Op.arity]) h, Outcome.ok_bind]
  rw [vst1_real (fn := (⟨.addConstant, false, false⟩ : Fn)) rfl hacc h _ (by
    intro i hi
    simp only [vadd, vmul, vmla, dup]
    rw [read_real rfl hs (p := a.p1) (by simp [vectors, Op.arity]) (by omega)]
    simp only [realResult, formula, operand, Op.arity, Nat.add_zero]
    simp; try ring), Outcome.ok_bind, Outcome.pure_eq]
  simp only [Nat.add_assoc]

theorem vectorAddConstant2_ok (a : Args K) (m : Memory K) (hacc : Accessible (⟨.addConstant, false, false⟩ : Fn) a m) (hs : Separate (⟨.addConstant, false, false⟩ : Fn) a) (off : Nat)
    (h : off + 2 ≤ a.n) : vectorAddConstant2 a.c.re ⟨a.p1 + off, 0, 0, a.y + off⟩ (written (⟨.addConstant, false, false⟩ : Fn) a m off) =
      .ok (⟨a.p1 + (off + 2), 0, 0, a.y + (off + 2)⟩, written (⟨.addConstant, false, false⟩ : Fn) a m (off + 2)) := by
  unfold vectorAddConstant2
  dsimp only
  rw [vld1_real rfl hacc (p := a.p1) (by simp [vectors, Op.arity]) h, Outcome.ok_bind]
  rw [vst1_real (fn := (⟨.addConstant, false, false⟩ : Fn)) rfl hacc h _ (by
    intro i hi
    simp only [vadd, vmul, vmla, dup]
    rw [read_real rfl hs (p := a.p1) (by simp [vectors, Op.arity]) (by omega)]
    simp only [realResult, formula, operand, Op.arity, Nat.add_zero]
    simp; try ring), Outcome.ok_bind, Outcome.pure_eq]
  simp only [Nat.add_assoc]

theorem vectorAddConstant1_ok (g : Garbage K) (a : Args K) (m : Memory K) (hacc : Accessible (⟨.addConstant, false, false⟩ : Fn) a m) (hs : Separate (⟨.addConstant, false, false⟩ : Fn) a) (off : Nat)
    (h : off + 1 ≤ a.n) : vectorAddConstant1 g a.c.re ⟨a.p1 + off, 0, 0, a.y + off⟩ (written (⟨.addConstant, false, false⟩ : Fn) a m off) =
      .ok (⟨a.p1 + (off + 1), 0, 0, a.y + (off + 1)⟩, written (⟨.addConstant, false, false⟩ : Fn) a m (off + 1)) := by
  unfold vectorAddConstant1
  dsimp only
  rw [vld1Lane_real rfl hacc (p := a.p1) (by simp [vectors, Op.arity]) h, Outcome.ok_bind]
  rw [vst1_real (fn := (⟨.addConstant, false, false⟩ : Fn)) rfl hacc h _ (by
    intro i hi
    obtain rfl : i = 0 := by omega
    simp only [vadd, vmul, vmla, dup, if_true]
    rw [read_real0 rfl hs (p := a.p1) (by simp [vectors, Op.arity]) (by omega)]
    simp only [realResult, formula, operand, Op.arity, Nat.add_zero]
    simp; try ring), Outcome.ok_bind, Outcome.pure_eq]
  simp only [Nat.add_assoc]

theorem vectorAddConstant_ok (debug : Bool) (g : Garbage K) (a : Args K) (m : Memory K) (hacc : Accessible (⟨.addConstant, false, false⟩ : Fn) a m) (hs : Separate (⟨.addConstant, false, false⟩ : Fn) a)
    (hc : debug = true → ∀ p ∈ vectors (⟨.addConstant, false, false⟩ : Fn) a, check 1 p a.alignment = true) :
    vectorAddConstant debug g a.c.re a.p1 a.y a.n a.alignment m = .ok (.noError, written (⟨.addConstant, false, false⟩ : Fn) a m a.n) := by
  unfold vectorAddConstant
  rw [checked_ok _ _ _ _ _ _ fun hd p hp => hc hd p (by revert hp; simp [vectors, Op.arity]; try tauto)]
  conv_lhs => rw [← written_zero (⟨.addConstant, false, false⟩ : Fn) a m]
  exact run4_at _ _ _ (fun off => ⟨a.p1 + off, 0, 0, a.y + off⟩) (written (⟨.addConstant, false, false⟩ : Fn) a m) a.n (vectorAddConstant4_ok a m hacc hs) (vectorAddConstant2_ok a m hacc hs)
    (vectorAddConstant1_ok g a m hacc hs)

theorem cVectorAddConstant2_ok (a : Args K) (m : Memory K) (hacc : Accessible (⟨.addConstant, false, true⟩ : Fn) a m) (hs : Separate (⟨.addConstant, false, true⟩ : Fn) a) (off : Nat)
    (h : off + 2 ≤ a.n) : cVectorAddConstant2 a.c.re a.c.im ⟨a.p1 + 2 * off, 0, 0, a.y + 2 * off⟩ (written (⟨.addConstant, false, true⟩ : Fn) a m off) =
      .ok (⟨a.p1 + 2 * (off + 2), 0, 0, a.y + 2 * (off + 2)⟩, written (⟨.addConstant, false, true⟩ : Fn) a m (off + 2)) := by
  unfold cVectorAddConstant2
  dsimp only
  rw [vld1_complex (k := 4) rfl hacc (p := a.p1) (by simp [vectors, Op.arity]) (by omega), Outcome.ok_bind]
  rw [vst1_complex (w := 2) (fn := (⟨.addConstant, false, true⟩ : Fn)) rfl hacc h _ (by
    intro j hj
    have e0 : 2 * j % 2 = 0 := by omega
    have e1 : ¬ (2 * j + 1) % 2 = 0 := by omega
    simp only [vadd, alternate, if_pos e0, if_neg e1, ← Nat.add_assoc]
    rw [read_re rfl hs (p := a.p1) (by simp [vectors, Op.arity]) (by omega), read_im rfl hs (p := a.p1) (by simp [vectors, Op.arity]) (by omega)]
    simp only [complexResult, formula, operand, Op.arity, Nat.add_zero, Cx.add_re, Cx.add_im, Cx.mul_re, Cx.mul_im]
    constructor <;> (simp; try ring)), Outcome.ok_bind, Outcome.pure_eq]
  simp only [Nat.mul_add, ← Nat.add_assoc]

theorem cVectorAddConstant1_ok (a : Args K) (m : Memory K) (hacc : Accessible (⟨.addConstant, false, true⟩ : Fn) a m) (hs : Separate (⟨.addConstant, false, true⟩ : Fn) a) (off : Nat)
    (h : off + 1 ≤ a.n) : cVectorAddConstant1 a.c.re a.c.im ⟨a.p1 + 2 * off, 0, 0, a.y + 2 * off⟩ (written (⟨.addConstant, false, true⟩ : Fn) a m off) =
      .ok (⟨a.p1 + 2 * (off + 1), 0, 0, a.y + 2 * (off + 1)⟩, written (⟨.addConstant, false, true⟩ : Fn) a m (off + 1)) := by
  unfold cVectorAddConstant1
  dsimp only
  rw [vld1_complex (k := 2) rfl hacc (p := a.p1) (by simp [vectors, Op.arity]) (by omega), Outcome.ok_bind]
  rw [vst1_complex (w := 1) (fn := (⟨.addConstant, false, true⟩ : Fn)) rfl hacc h _ (by
    intro j hj
    have e0 : 2 * j % 2 = 0 := by omega
    have e1 : ¬ (2 * j + 1) % 2 = 0 := by omega
    simp only [vadd, alternate, if_pos e0, if_neg e1, ← Nat.add_assoc]
    rw [read_re rfl hs (p := a.p1) (by simp [vectors, Op.arity]) (by omega), read_im rfl hs (p := a.p1) (by simp [vectors, Op.arity]) (by omega)]
    simp only [complexResult, formula, operand, Op.arity, Nat.add_zero, Cx.add_re, Cx.add_im, Cx.mul_re, Cx.mul_im]
    constructor <;> (simp; try ring)), Outcome.ok_bind, Outcome.pure_eq]
  simp only [Nat.mul_add, ← Nat.add_assoc]

theorem cVectorAddConstant_ok (debug : Bool) (a : Args K) (m : Memory K) (hacc : Accessible (⟨.addConstant, false, true⟩ : Fn) a m) (hs : Separate (⟨.addConstant, false, true⟩ : Fn) a)
    (hc : debug = true → ∀ p ∈ vectors (⟨.addConstant, false, true⟩ : Fn) a, check 2 p a.alignment = true) :
    cVectorAddConstant debug a.c.re a.c.im a.p1 a.y a.n a.alignment m = .ok (.noError, written (⟨.addConstant, false, true⟩ : Fn) a m a.n) := by
  unfold cVectorAddConstant
  rw [checked_ok _ _ _ _ _ _ fun hd p hp => hc hd p (by revert hp; simp [vectors, Op.arity]; try tauto)]
  conv_lhs => rw [← written_zero (⟨.addConstant, false, true⟩ : Fn) a m]
  exact run2_at _ _ (fun off => ⟨a.p1 + 2 * off, 0, 0, a.y + 2 * off⟩) (written (⟨.addConstant, false, true⟩ : Fn) a m) a.n (cVectorAddConstant2_ok a m hacc hs) (cVectorAddConstant1_ok a m hacc hs)

theorem vectorAddConstantInplace4_ok (a : Args K) (m : Memory K) (hacc : Accessible (⟨.addConstant, true, false⟩ : Fn) a m) (hs : Separate (⟨.addConstant, true, false⟩ : Fn) a) (off : Nat)
    (h : off + 4 ≤ a.n) : vectorAddConstantInplace4 a.c.re ⟨0, 0, 0, a.y + off⟩ (written (⟨.addConstant, true, false⟩ : Fn) a m off) =
      .ok (⟨0, 0, 0, a.y + (off + 4)⟩, written (⟨.addConstant, true, false⟩ : Fn) a m (off + 4)) := by
  unfold vectorAddConstantInplace4
  dsimp only
  rw [vld1_real rfl hacc (p := a.y) (by simp [vectors, Op.arity]) h, Outcome.ok_bind]
  rw [vst1_real (fn := (⟨.addConstant, true, false⟩ : Fn)) rfl hacc h _ (by
    intro i hi
    simp only [vadd, vmul, vmla, dup]
    rw [read_real rfl hs (p := a.y) (by simp [vectors, Op.arity]) (by omega)]
    simp only [realResult, formula, operand, Op.arity, Nat.add_zero]
    simp; try ring), Outcome.ok_bind, Outcome.pure_eq]
  simp only [Nat.add_assoc]

theorem vectorAddConstantInplace2_ok (a : Args K) (m : Memory K) (hacc : Accessible (⟨.addConstant, true, false⟩ : Fn) a m) (hs : Separate (⟨.addConstant, true, false⟩ : Fn) a) (off : Nat)
    (h : off + 2 ≤ a.n) : vectorAddConstantInplace2 a.c.re ⟨0, 0, 0, a.y + off⟩ (written (⟨.addConstant, true, false⟩ : Fn) a m off) =
      .ok (⟨0, 0, 0, a.y + (off + 2)⟩, written (⟨.addConstant, true, false⟩ : Fn) a m (off + 2)) := by
  unfold vectorAddConstantInplace2
  dsimp only
  rw [vld1_real rfl hacc (p := a.y) (by simp [vectors, Op.arity]) h, Outcome.ok_bind]
  rw [vst1_real (fn := (⟨.addConstant, true, false⟩ : Fn)) rfl hacc h _ (by
    intro i hi
    simp only [vadd, vmul, vmla, dup]
    rw [read_real rfl hs (p := a.y) (by simp [vectors, Op.arity]) (by omega)]
    simp only [realResult, formula, operand, Op.arity, Nat.add_zero]
    simp; try ring), Outcome.ok_bind, Outcome.pure_eq]
  simp only [Nat.add_assoc]

theorem vectorAddConstantInplace1_ok (g : Garbage K) (a : Args K) (m : Memory K) (hacc : Accessible (⟨.addConstant, true, false⟩ : Fn) a m) (hs : Separate (⟨.addConstant, true, false⟩ : Fn) a) (off : Nat)
    (h : off + 1 ≤ a.n) : vectorAddConstantInplace1 g a.c.re ⟨0, 0, 0, a.y + off⟩ (written (⟨.addConstant, true, false⟩ : Fn) a m off) =
      .ok (⟨0, 0, 0, a.y + (off + 1)⟩, written (⟨.addConstant, true, false⟩ : Fn) a m (off + 1)) := by
  unfold vectorAddConstantInplace1
  dsimp only
  rw [vld1Lane_real rfl hacc (p := a.y) (by simp [vectors, Op.arity]) h, Outcome.ok_bind]
  rw [vst1_real (fn := (⟨.addConstant, true, false⟩ : Fn)) rfl hacc h _ (by
    intro i hi
    obtain rfl : i = 0 := by omega
    simp only [vadd, vmul, vmla, dup, if_true]
    rw [read_real0 rfl hs (p := a.y) (by simp [vectors, Op.arity]) (by omega)]
    simp only [realResult, formula, operand, Op.arity, Nat.add_zero]
    simp; try ring), Outcome.ok_bind, Outcome.pure_eq]
  simp only [Nat.add_assoc]

theorem vectorAddConstantInplace_ok (debug : Bool) (g : Garbage K) (a : Args K) (m : Memory K) (hacc : Accessible (⟨.addConstant, true, false⟩ : Fn) a m) (hs : Separate (⟨.addConstant, true, false⟩ : Fn) a)
    (hc : debug = true → ∀ p ∈ vectors (⟨.addConstant, true, false⟩ : Fn) a, check 1 p a.alignment = true) :
    vectorAddConstantInplace debug g a.c.re a.y a.n a.alignment m = .ok (.noError, written (⟨.addConstant, true, false⟩ : Fn) a m a.n) := by
  unfold vectorAddConstantInplace
  rw [checked_ok _ _ _ _ _ _ fun hd p hp => hc hd p (by revert hp; simp [vectors, Op.arity]; try tauto)]
  conv_lhs => rw [← written_zero (⟨.addConstant, true, false⟩ : Fn) a m]
  exact run4_at _ _ _ (fun off => ⟨0, 0, 0, a.y + off⟩) (written (⟨.addConstant, true, false⟩ : Fn) a m) a.n (vectorAddConstantInplace4_ok a m hacc hs) (vectorAddConstantInplace2_ok a m hacc hs)
    (vectorAddConstantInplace1_ok g a m hacc hs)

theorem cVectorAddConstantInplace2_ok (a : Args K) (m : Memory K) (hacc : Accessible (⟨.addConstant, true, true⟩ : Fn) a m) (hs : Separate (⟨.addConstant, true, true⟩ : Fn) a) (off : Nat)
    (h : off + 2 ≤ a.n) : cVectorAddConstantInplace2 a.c.re a.c.im ⟨0, 0, 0, a.y + 2 * off⟩ (written (⟨.addConstant, true, true⟩ : Fn) a m off) =
      .ok (⟨0, 0, 0, a.y + 2 * (off + 2)⟩, written (⟨.addConstant, true, true⟩ : Fn) a m (off + 2)) := by
  unfold cVectorAddConstantInplace2
  dsimp only
  rw [vld1_complex (k := 4) rfl hacc (p := a.y) (by simp [vectors, Op.arity]) (by omega), Outcome.ok_bind]
  rw [vst1_complex (w := 2) (fn := (⟨.addConstant, true, true⟩ : Fn)) rfl hacc h _ (by
    intro j hj
    have e0 : 2 * j % 2 = 0 := by omega
    have e1 : ¬ (2 * j + 1) % 2 = 0 := by omega
    simp only [vadd, alternate, if_pos e0, if_neg e1, ← Nat.add_assoc]
    rw [read_re rfl hs (p := a.y) (by simp [vectors, Op.arity]) (by omega), read_im rfl hs (p := a.y) (by simp [vectors, Op.arity]) (by omega)]
    simp only [complexResult, formula, operand, Op.arity, Nat.add_zero, Cx.add_re, Cx.add_im, Cx.mul_re, Cx.mul_im]
    constructor <;> (simp; try ring)), Outcome.ok_bind, Outcome.pure_eq]
  simp only [Nat.mul_add, ← Nat.add_assoc]

theorem cVectorAddConstantInplace1_ok (a : Args K) (m : Memory K) (hacc : Accessible (⟨.addConstant, true, true⟩ : Fn) a m) (hs : Separate (⟨.addConstant, true, true⟩ : Fn) a) (off : Nat)
    (h : off + 1 ≤ a.n) : cVectorAddConstantInplace1 a.c.re a.c.im ⟨0, 0, 0, a.y + 2 * off⟩ (written (⟨.addConstant, true, true⟩ : Fn) a m off) =
      .ok (⟨0, 0, 0, a.y + 2 * (off + 1)⟩, written (⟨.addConstant, true, true⟩ : Fn) a m (off + 1)) := by
  unfold cVectorAddConstantInplace1
  dsimp only
  rw [vld1_complex (k := 2) rfl hacc (p := a.y) (by simp [vectors, Op.arity]) (by omega), Outcome.ok_bind]
  rw [vst1_complex (w := 1) (fn := (⟨.addConstant, true, true⟩ : Fn)) rfl hacc h _ (by
    intro j hj
    have e0 : 2 * j % 2 = 0 := by omega
    have e1 : ¬ (2 * j + 1) % 2 = 0 := by omega
    simp only [vadd, alternate, if_pos e0, if_neg e1, ← Nat.add_assoc]
    rw [read_re rfl hs (p := a.y) (by simp [vectors, Op.arity]) (by omega), read_im rfl hs (p := a.y) (by simp [vectors, Op.arity]) (by omega)]
    simp only [complexResult, formula, operand, Op.arity, Nat.add_zero, Cx.add_re, Cx.add_im, Cx.mul_re, Cx.mul_im]
    constructor <;> (simp; try ring)), Outcome.ok_bind, Outcome.pure_eq]
  simp only [Nat.mul_add, ← Nat.add_assoc]

theorem cVectorAddConstantInplace_ok (debug : Bool) (a : Args K) (m : Memory K) (hacc : Accessible (⟨.addConstant, true, true⟩ : Fn) a m) (hs : Separate (⟨.addConstant, true, true⟩ : Fn) a)
    (hc : debug = true → ∀ p ∈ vectors (⟨.addConstant, true, true⟩ : Fn) a, check 2 p a.alignment = true) :
    cVectorAddConstantInplace debug a.c.re a.c.im a.y a.n a.alignment m = .ok (.noError, written (⟨.addConstant, true, true⟩ : Fn) a m a.n) := by
  unfold cVectorAddConstantInplace
  rw [checked_ok _ _ _ _ _ _ fun hd p hp => hc hd p (by revert hp; simp [vectors, Op.arity]; try tauto)]
  conv_lhs => rw [← written_zero (⟨.addConstant, true, true⟩ : Fn) a m]
  exact run2_at _ _ (fun off => ⟨0, 0, 0, a.y + 2 * off⟩) (written (⟨.addConstant, true, true⟩ : Fn) a m) a.n (cVectorAddConstantInplace2_ok a m hacc hs) (cVectorAddConstantInplace1_ok a m hacc hs)

theorem vectorMultiply4_ok (a : Args K) (m : Memory K) (hacc : Accessible (⟨.multiply, false, false⟩ : Fn) a m) (hs : Separate (⟨.multiply, false, false⟩ : Fn) a) (off : Nat)
    (h : off + 4 ≤ a.n) : vectorMultiply4 ⟨a.p1 + off, a.p2 + off, 0, a.y + off⟩ (written (⟨.multiply, false, false⟩ : Fn) a m off) =
      .ok (⟨a.p1 + (off + 4), a.p2 + (off + 4), 0, a.y + (off + 4)⟩, written (⟨.multiply, false, false⟩ : Fn) a m (off + 4)) := by
  unfold vectorMultiply4
  dsimp only
  rw [vld1_real rfl hacc (p := a.p1) (by simp [vectors, Op.arity]) h, Outcome.ok_bind, vld1_real rfl hacc (p := a.p2) (by simp [vectors, Op.arity]) h, Outcome.ok_bind]
  rw [vst1_real (fn := (⟨.multiply, false, false⟩ : Fn)) rfl hacc h _ (by
    intro i hi
    simp only [vadd, vmul, vmla, dup]
    rw [read_real rfl hs (p := a.p1) (by simp [vectors, Op.arity]) (by omega), read_real rfl hs (p := a.p2) (by simp [vectors, Op.arity]) (by omega)]
    simp only [realResult, formula, operand, Op.arity, Nat.add_zero]
    simp; try ring), Outcome.ok_bind, Outcome.pure_eq]
  simp only [Nat.add_assoc]

theorem vectorMultiply2_ok (a : Args K) (m : Memory K) (hacc : Accessible (⟨.multiply, false, false⟩ : Fn) a m) (hs : Separate (⟨.multiply, false, false⟩ : Fn) a) (off : Nat)
    (h : off + 2 ≤ a.n) : vectorMultiply2 ⟨a.p1 + off, a.p2 + off, 0, a.y + off⟩ (written (⟨.multiply, false, false⟩ : Fn) a m off) =
      .ok (⟨a.p1 + (off + 2), a.p2 + (off + 2), 0, a.y + (off + 2)⟩, written (⟨.multiply, false, false⟩ : Fn) a m (off + 2)) := by
  unfold vectorMultiply2
  dsimp only
  rw [vld1_real rfl hacc (p := a.p1) (by simp [vectors, Op.arity]) h, Outcome.ok_bind, vld1_real rfl hacc (p := a.p2) (by simp [vectors, Op.arity]) h, Outcome.ok_bind]
  rw [vst1_real (fn := (⟨.multiply, false, false⟩ : Fn)) rfl hacc h _ (by
    intro i hi
    simp only [vadd, vmul, vmla, dup]
    rw [read_real rfl hs (p := a.p1) (by simp [vectors, Op.arity]) (by omega), read_real rfl hs (p := a.p2) (by simp [vectors, Op.arity]) (by omega)]
    simp only [realResult, formula, operand, Op.arity, Nat.add_zero]
    simp; try ring), Outcome.ok_bind, Outcome.pure_eq]
  simp only [Nat.add_assoc]

theorem vectorMultiply1_ok (g : Garbage K) (a : Args K) (m : Memory K) (hacc : Accessible (⟨.multiply, false, false⟩ : Fn) a m) (hs : Separate (⟨.multiply, false, false⟩ : Fn) a) (off : Nat)
    (h : off + 1 ≤ a.n) : vectorMultiply1 g ⟨a.p1 + off, a.p2 + off, 0, a.y + off⟩ (written (⟨.multiply, false, false⟩ : Fn) a m off) =
      .ok (⟨a.p1 + (off + 1), a.p2 + (off + 1), 0, a.y + (off + 1)⟩, written (⟨.multiply, false, false⟩ : Fn) a m (off + 1)) := by
  unfold vectorMultiply1
  dsimp only
  rw [vld1Lane_real rfl hacc (p := a.p1) (by simp [vectors, Op.arity]) h, Outcome.ok_bind, vld1Lane_real rfl hacc (p := a.p2) (by simp [vectors, Op.arity]) h, Outcome.ok_bind]
  rw [vst1_real (fn := (⟨.multiply, false, false⟩ : Fn)) rfl hacc h _ (by
    intro i hi
    obtain rfl : i = 0 := by omega
    simp only [vadd, vmul, vmla, dup, if_true]
    rw [read_real0 rfl hs (p := a.p1) (by simp [vectors, Op.arity]) (by omega), read_real0 rfl hs (p := a.p2) (by simp [vectors, Op.arity]) (by omega)]
    simp only [realResult, formula, operand, Op.arity, Nat.add_zero]
    simp; try ring), Outcome.ok_bind, Outcome.pure_eq]
  simp only [Nat.add_assoc]

theorem vectorMultiply_ok (debug : Bool) (g : Garbage K) (a : Args K) (m : Memory K) (hacc : Accessible (⟨.multiply, false, false⟩ : Fn) a m) (hs : Separate (⟨.multiply, false, false⟩ : Fn) a)
    (hc : debug = true → ∀ p ∈ vectors (⟨.multiply, false, false⟩ : Fn) a, check 1 p a.alignment = true) :
    vectorMultiply debug g a.p1 a.p2 a.y a.n a.alignment m = .ok (.noError, written (⟨.multiply, false, false⟩ : Fn) a m a.n) := by
  unfold vectorMultiply
  rw [checked_ok _ _ _ _ _ _ fun hd p hp => hc hd p (by revert hp; simp [vectors, Op.arity]; try tauto)]
  conv_lhs => rw [← written_zero (⟨.multiply, false, false⟩ : Fn) a m]
  exact run4_at _ _ _ (fun off => ⟨a.p1 + off, a.p2 + off, 0, a.y + off⟩) (written (⟨.multiply, false, false⟩ : Fn) a m) a.n (vectorMultiply4_ok a m hacc hs) (vectorMultiply2_ok a m hacc hs)
    (vectorMultiply1_ok g a m hacc hs)

theorem cVectorMultiply4_ok (a : Args K) (m : Memory K) (hacc : Accessible (⟨.multiply, false, true⟩ : Fn) a m) (hs : Separate (⟨.multiply, false, true⟩ : Fn) a) (off : Nat)
    (h : off + 4 ≤ a.n) : cVectorMultiply4 ⟨a.p1 + 2 * off, a.p2 + 2 * off, 0, a.y + 2 * off⟩ (written (⟨.multiply, false, true⟩ : Fn) a m off) =
      .ok (⟨a.p1 + 2 * (off + 4), a.p2 + 2 * (off + 4), 0, a.y + 2 * (off + 4)⟩, written (⟨.multiply, false, true⟩ : Fn) a m (off + 4)) := by
  unfold cVectorMultiply4
  dsimp only
  rw [vld2_complex rfl hacc (p := a.p1) (by simp [vectors, Op.arity]) h, Outcome.ok_bind, vld2_complex rfl hacc (p := a.p2) (by simp [vectors, Op.arity]) h, Outcome.ok_bind]
  rw [vst2_complex (w := 4) (fn := (⟨.multiply, false, true⟩ : Fn)) rfl hacc h _ (by
    intro j hj
    simp only [vmul, vmla, vmls, dup]
    rw [read_re rfl hs (p := a.p1) (by simp [vectors, Op.arity]) (by omega), read_im rfl hs (p := a.p1) (by simp [vectors, Op.arity]) (by omega), read_re rfl hs (p := a.p2) (by simp [vectors, Op.arity]) (by omega), read_im rfl hs (p := a.p2) (by simp [vectors, Op.arity]) (by omega)]
    simp only [complexResult, formula, operand, Op.arity, Nat.add_zero, Cx.add_re, Cx.add_im, Cx.mul_re, Cx.mul_im]
    constructor <;> (simp; try ring)), Outcome.ok_bind, Outcome.pure_eq]
  simp only [Nat.mul_add, ← Nat.add_assoc]

theorem cVectorMultiply2_ok (a : Args K) (m : Memory K) (hacc : Accessible (⟨.multiply, false, true⟩ : Fn) a m) (hs : Separate (⟨.multiply, false, true⟩ : Fn) a) (off : Nat)
    (h : off + 2 ≤ a.n) : cVectorMultiply2 ⟨a.p1 + 2 * off, a.p2 + 2 * off, 0, a.y + 2 * off⟩ (written (⟨.multiply, false, true⟩ : Fn) a m off) =
      .ok (⟨a.p1 + 2 * (off + 2), a.p2 + 2 * (off + 2), 0, a.y + 2 * (off + 2)⟩, written (⟨.multiply, false, true⟩ : Fn) a m (off + 2)) := by
  unfold cVectorMultiply2
  dsimp only
  rw [vld2_complex rfl hacc (p := a.p1) (by simp [vectors, Op.arity]) h, Outcome.ok_bind, vld2_complex rfl hacc (p := a.p2) (by simp [vectors, Op.arity]) h, Outcome.ok_bind]
  rw [vst2_complex (w := 2) (fn := (⟨.multiply, false, true⟩ : Fn)) rfl hacc h _ (by
    intro j hj
    simp only [vmul, vmla, vmls, dup]
    rw [read_re rfl hs (p := a.p1) (by simp [vectors, Op.arity]) (by omega), read_im rfl hs (p := a.p1) (by simp [vectors, Op.arity]) (by omega), read_re rfl hs (p := a.p2) (by simp [vectors, Op.arity]) (by omega), read_im rfl hs (p := a.p2) (by simp [vectors, Op.arity]) (by omega)]
    simp only [complexResult, formula, operand, Op.arity, Nat.add_zero, Cx.add_re, Cx.add_im, Cx.mul_re, Cx.mul_im]
    constructor <;> (simp; try ring)), Outcome.ok_bind, Outcome.pure_eq]
  simp only [Nat.mul_add, ← Nat.add_assoc]

theorem cVectorMultiply1_ok (g : Garbage K) (a : Args K) (m : Memory K) (hacc : Accessible (⟨.multiply, false, true⟩ : Fn) a m) (hs : Separate (⟨.multiply, false, true⟩ : Fn) a) (off : Nat)
    (h : off + 1 ≤ a.n) : cVectorMultiply1 g ⟨a.p1 + 2 * off, a.p2 + 2 * off, 0, a.y + 2 * off⟩ (written (⟨.multiply, false, true⟩ : Fn) a m off) =
      .ok (⟨a.p1 + 2 * (off + 1), a.p2 + 2 * (off + 1), 0, a.y + 2 * (off + 1)⟩, written (⟨.multiply, false, true⟩ : Fn) a m (off + 1)) := by
  unfold cVectorMultiply1
  dsimp only
  rw [vld2Lane_complex rfl hacc (p := a.p1) (by simp [vectors, Op.arity]) h, Outcome.ok_bind, vld2Lane_complex rfl hacc (p := a.p2) (by simp [vectors, Op.arity]) h, Outcome.ok_bind]
  rw [vst2_complex (w := 1) (fn := (⟨.multiply, false, true⟩ : Fn)) rfl hacc h _ (by
    intro j hj
    obtain rfl : j = 0 := by omega
    simp only [vmul, vmla, vmls, dup, if_true]
    rw [read_re0 rfl hs (p := a.p1) (by simp [vectors, Op.arity]) (by omega), read_im0 rfl hs (p := a.p1) (by simp [vectors, Op.arity]) (by omega), read_re0 rfl hs (p := a.p2) (by simp [vectors, Op.arity]) (by omega), read_im0 rfl hs (p := a.p2) (by simp [vectors, Op.arity]) (by omega)]
    simp only [complexResult, formula, operand, Op.arity, Nat.add_zero, Cx.add_re, Cx.add_im, Cx.mul_re, Cx.mul_im]
    constructor <;> (simp; try ring)), Outcome.ok_bind, Outcome.pure_eq]
  simp only [Nat.mul_add, ← Nat.add_assoc]

theorem cVectorMultiply_ok (debug : Bool) (g : Garbage K) (a : Args K) (m : Memory K) (hacc : Accessible (⟨.multiply, false, true⟩ : Fn) a m) (hs : Separate (⟨.multiply, false, true⟩ : Fn) a)
    (hc : debug = true → ∀ p ∈ vectors (⟨.multiply, false, true⟩ : Fn) a, check 2 p a.alignment = true) :
    cVectorMultiply debug g a.p1 a.p2 a.y a.n a.alignment m = .ok (.noError, written (⟨.multiply, false, true⟩ : Fn) a m a.n) := by
  unfold cVectorMultiply
  rw [checked_ok _ _ _ _ _ _ fun hd p hp => hc hd p (by revert hp; simp [vectors, Op.arity]; try tauto)]
  conv_lhs => rw [← written_zero (⟨.multiply, false, true⟩ : Fn) a m]
  exact run4_at _ _ _ (fun off => ⟨a.p1 + 2 * off, a.p2 + 2 * off, 0, a.y + 2 * off⟩) (written (⟨.multiply, false, true⟩ : Fn) a m) a.n (cVectorMultiply4_ok a m hacc hs) (cVectorMultiply2_ok a m hacc hs)
    (cVectorMultiply1_ok g a m hacc hs)

theorem vectorMultiplyInplace4_ok (a : Args K) (m : Memory K) (hacc : Accessible (⟨.multiply, true, false⟩ : Fn) a m) (hs : Separate (⟨.multiply, true, false⟩ : Fn) a) (off : Nat)
    (h : off + 4 ≤ a.n) : vectorMultiplyInplace4 ⟨a.p1 + off, 0, 0, a.y + off⟩ (written (⟨.multiply, true, false⟩ : Fn) a m off) =
      .ok (⟨a.p1 + (off + 4), 0, 0, a.y + (off + 4)⟩, written (⟨.multiply, true, false⟩ : Fn) a m (off + 4)) := by
  unfold vectorMultiplyInplace4
  dsimp only
  rw [vld1_real rfl hacc (p := a.p1) (by simp [vectors, Op.arity]) h, Outcome.ok_bind, vld1_real rfl hacc (p := a.y) (by simp [vectors, Op.arity]) h, Outcome.ok_bind]
  rw [vst1_real (fn := (⟨.multiply, true, false⟩ : Fn)) rfl hacc h _ (by
    intro i hi
    simp only [vadd, vmul, vmla, dup]
    rw [read_real rfl hs (p := a.p1) (by simp [vectors, Op.arity]) (by omega), read_real rfl hs (p := a.y) (by simp [vectors, Op.arity]) (by omega)]
    simp only [realResult, formula, operand, Op.arity, Nat.add_zero]
    simp; try ring), Outcome.ok_bind, Outcome.pure_eq]
  simp only [Nat.add_assoc]

theorem vectorMultiplyInplace2_ok (a : Args K) (m : Memory K) (hacc : Accessible (⟨.multiply, true, false⟩ : Fn) a m) (hs : Separate (⟨.multiply, true, false⟩ : Fn) a) (off : Nat)
    (h : off + 2 ≤ a.n) : vectorMultiplyInplace2 ⟨a.p1 + off, 0, 0, a.y + off⟩ (written (⟨.multiply, true, false⟩ : Fn) a m off) =
      .ok (⟨a.p1 + (off + 2), 0, 0, a.y + (off + 2)⟩, written (⟨.multiply, true, false⟩ : Fn) a m (off + 2)) := by
  unfold vectorMultiplyInplace2
  dsimp only
  rw [vld1_real rfl hacc (p := a.p1) (by simp [vectors, Op.arity]) h, Outcome.ok_bind, vld1_real rfl hacc (p := a.y) (by simp [vectors, Op.arity]) h, Outcome.ok_bind]
  rw [vst1_real (fn := (⟨.multiply, true, false⟩ : Fn)) rfl hacc h _ (by
    intro i hi
    simp only [vadd, vmul, vmla, dup]
    rw [read_real rfl hs (p := a.p1) (by simp [vectors, Op.arity]) (by omega), read_real rfl hs (p := a.y) (by simp [vectors, Op.arity]) (by omega)]
    simp only [realResult, formula, operand, Op.arity, Nat.add_zero]
    simp; try ring), Outcome.ok_bind, Outcome.pure_eq]
  simp only [Nat.add_assoc]

theorem vectorMultiplyInplace1_ok (g : Garbage K) (a : Args K) (m : Memory K) (hacc : Accessible (⟨.multiply, true, false⟩ : Fn) a m) (hs : Separate (⟨.multiply, true, false⟩ : Fn) a) (off : Nat)
    (h : off + 1 ≤ a.n) : vectorMultiplyInplace1 g ⟨a.p1 + off, 0, 0, a.y + off⟩ (written (⟨.multiply, true, false⟩ : Fn) a m off) =
      .ok (⟨a.p1 + (off + 1), 0, 0, a.y + (off + 1)⟩, written (⟨.multiply, true, false⟩ : Fn) a m (off + 1)) := by
  unfold vectorMultiplyInplace1
  dsimp only
  rw [vld1Lane_real rfl hacc (p := a.p1) (by simp [vectors, Op.arity]) h, Outcome.ok_bind, vld1Lane_real rfl hacc (p := a.y) (by simp [vectors, Op.arity]) h, Outcome.ok_bind]
  rw [vst1_real (fn := (⟨.multiply, true, false⟩ : Fn)) rfl hacc h _ (by
    intro i hi
    obtain rfl : i = 0 := by omega
    simp only [vadd, vmul, vmla, dup, if_true]
    rw [read_real0 rfl hs (p := a.p1) (by simp [vectors, Op.arity]) (by omega), read_real0 rfl hs (p := a.y) (by simp [vectors, Op.arity]) (by omega)]
    simp only [realResult, formula, operand, Op.arity, Nat.add_zero]
    simp; try ring), Outcome.ok_bind, Outcome.pure_eq]
  simp only [Nat.add_assoc]

theorem vectorMultiplyInplace_ok (debug : Bool) (g : Garbage K) (a : Args K) (m : Memory K) (hacc : Accessible (⟨.multiply, true, false⟩ : Fn) a m) (hs : Separate (⟨.multiply, true, false⟩ : Fn) a)
    (hc : debug = true → ∀ p ∈ vectors (⟨.multiply, true, false⟩ : Fn) a, check 1 p a.alignment = true) :
    vectorMultiplyInplace debug g a.p1 a.y a.n a.alignment m = .ok (.noError, written (⟨.multiply, true, false⟩ : Fn) a m a.n) := by
  unfold vectorMultiplyInplace
  rw [checked_ok _ _ _ _ _ _ fun hd p hp => hc hd p (by revert hp; simp [vectors, Op.arity]; try tauto)]
  conv_lhs => rw [← written_zero (⟨.multiply, true, false⟩ : Fn) a m]
  exact run4_at _ _ _ (fun off => ⟨a.p1 + off, 0, 0, a.y + off⟩) (written (⟨.multiply, true, false⟩ : Fn) a m) a.n (vectorMultiplyInplace4_ok a m hacc hs) (vectorMultiplyInplace2_ok a m hacc hs)
    (vectorMultiplyInplace1_ok g a m hacc hs)

theorem cVectorMultiplyInplace4_ok (a : Args K) (m : Memory K) (hacc : Accessible (⟨.multiply, true, true⟩ : Fn) a m) (hs : Separate (⟨.multiply, true, true⟩ : Fn) a) (off : Nat)
    (h : off + 4 ≤ a.n) : cVectorMultiplyInplace4 ⟨a.p1 + 2 * off, 0, 0, a.y + 2 * off⟩ (written (⟨.multiply, true, true⟩ : Fn) a m off) =
      .ok (⟨a.p1 + 2 * (off + 4), 0, 0, a.y + 2 * (off + 4)⟩, written (⟨.multiply, true, true⟩ : Fn) a m (off + 4)) := by
  unfold cVectorMultiplyInplace4
  dsimp only
  rw [vld2_complex rfl hacc (p := a.p1) (by simp [vectors, Op.arity]) h, Outcome.ok_bind, vld2_complex rfl hacc (p := a.y) (by simp [vectors, Op.arity]) h, Outcome.ok_bind]
  rw [vst2_complex (w := 4) (fn := (⟨.multiply, true, true⟩ : Fn)) rfl hacc h _ (by
    intro j hj
    simp only [vmul, vmla, vmls, dup]
    rw [read_re rfl hs (p := a.p1) (by simp [vectors, Op.arity]) (by omega), read_im rfl hs (p := a.p1) (by simp [vectors, Op.arity]) (by omega), read_re rfl hs (p := a.y) (by simp [vectors, Op.arity]) (by omega), read_im rfl hs (p := a.y) (by simp [vectors, Op.arity]) (by omega)]
    simp only [complexResult, formula, operand, Op.arity, Nat.add_zero, Cx.add_re, Cx.add_im, Cx.mul_re, Cx.mul_im]
    constructor <;> (simp; try ring)), Outcome.ok_bind, Outcome.pure_eq]
  simp only [Nat.mul_add, ← Nat.add_assoc]

theorem cVectorMultiplyInplace2_ok (a : Args K) (m : Memory K) (hacc : Accessible (⟨.multiply, true, true⟩ : Fn) a m) (hs : Separate (⟨.multiply, true, true⟩ : Fn) a) (off : Nat)
    (h : off + 2 ≤ a.n) : cVectorMultiplyInplace2 ⟨a.p1 + 2 * off, 0, 0, a.y + 2 * off⟩ (written (⟨.multiply, true, true⟩ : Fn) a m off) =
      .ok (⟨a.p1 + 2 * (off + 2), 0, 0, a.y + 2 * (off + 2)⟩, written (⟨.multiply, true, true⟩ : Fn) a m (off + 2)) := by
  unfold cVectorMultiplyInplace2
  dsimp only
  rw [vld2_complex rfl hacc (p := a.p1) (by simp [vectors, Op.arity]) h, Outcome.ok_bind, vld2_complex rfl hacc (p := a.y) (by simp [vectors, Op.arity]) h, Outcome.ok_bind]
  rw [vst2_complex (w := 2) (fn := (⟨.multiply, true, true⟩ : Fn)) rfl hacc h _ (by
    intro j hj
    simp only [vmul, vmla, vmls, dup]
    rw [read_re rfl hs (p := a.p1) (by simp [vectors, Op.arity]) (by omega), read_im rfl hs (p := a.p1) (by simp [vectors, Op.arity]) (by omega), read_re rfl hs (p := a.y) (by simp [vectors, Op.arity]) (by omega), read_im rfl hs (p := a.y) (by simp [vectors, Op.arity]) (by omega)]
    simp only [complexResult, formula, operand, Op.arity, Nat.add_zero, Cx.add_re, Cx.add_im, Cx.mul_re, Cx.mul_im]
    constructor <;> (simp; try ring)), Outcome.ok_bind, Outcome.pure_eq]
  simp only [Nat.mul_add, ← Nat.add_assoc]

theorem cVectorMultiplyInplace1_ok (g : Garbage K) (a : Args K) (m : Memory K) (hacc : Accessible (⟨.multiply, true, true⟩ : Fn) a m) (hs : Separate (⟨.multiply, true, true⟩ : Fn) a) (off : Nat)
    (h : off + 1 ≤ a.n) : cVectorMultiplyInplace1 g ⟨a.p1 + 2 * off, 0, 0, a.y + 2 * off⟩ (written (⟨.multiply, true, true⟩ : Fn) a m off) =
      .ok (⟨a.p1 + 2 * (off + 1), 0, 0, a.y + 2 * (off + 1)⟩, written (⟨.multiply, true, true⟩ : Fn) a m (off + 1)) := by
  unfold cVectorMultiplyInplace1
  dsimp only
  rw [vld2Lane_complex rfl hacc (p := a.p1) (by simp [vectors, Op.arity]) h, Outcome.ok_bind, vld2Lane_complex rfl hacc (p := a.y) (by simp [vectors, Op.arity]) h, Outcome.ok_bind]
  rw [vst2_complex (w := 1) (fn := (⟨.multiply, true, true⟩ : Fn)) rfl hacc h _ (by
    intro j hj
    obtain rfl : j = 0 := by omega
    simp only [vmul, vmla, vmls, dup, if_true]
    rw [read_re0 rfl hs (p := a.p1) (by simp [vectors, Op.arity]) (by omega), read_im0 rfl hs (p := a.p1) (by simp [vectors, Op.arity]) (by omega), read_re0 rfl hs (p := a.y) (by simp [vectors, Op.arity]) (by omega), read_im0 rfl hs (p := a.y) (by simp [vectors, Op.arity]) (by omega)]
    simp only [complexResult, formula, operand, Op.arity, Nat.add_zero, Cx.add_re, Cx.add_im, Cx.mul_re, Cx.mul_im]
    constructor <;> (simp; try ring)), Outcome.ok_bind, Outcome.pure_eq]
  simp only [Nat.mul_add, ← Nat.add_assoc]

theorem cVectorMultiplyInplace_ok (debug : Bool) (g : Garbage K) (a : Args K) (m : Memory K) (hacc : Accessible (⟨.multiply, true, true⟩ : Fn) a m) (hs : Separate (⟨.multiply, true, true⟩ : Fn) a)
    (hc : debug = true → ∀ p ∈ vectors (⟨.multiply, true, true⟩ : Fn) a, check 2 p a.alignment = true) :
    cVectorMultiplyInplace debug g a.p1 a.y a.n a.alignment m = .ok (.noError, written (⟨.multiply, true, true⟩ : Fn) a m a.n) := by
  unfold cVectorMultiplyInplace
  rw [checked_ok _ _ _ _ _ _ fun hd p hp => hc hd p (by revert hp; simp [vectors, Op.arity]; try tauto)]
  conv_lhs => rw [← written_zero (⟨.multiply, true, true⟩ : Fn) a m]
  exact run4_at _ _ _ (fun off => ⟨a.p1 + 2 * off, 0, 0, a.y + 2 * off⟩) (written (⟨.multiply, true, true⟩ : Fn) a m) a.n (cVectorMultiplyInplace4_ok a m hacc hs) (cVectorMultiplyInplace2_ok a m hacc hs)
    (cVectorMultiplyInplace1_ok g a m hacc hs)

theorem vectorMultiplyConstant4_ok (a : Args K) (m : Memory K) (hacc : Accessible (⟨.multiplyConstant, false, false⟩ : Fn) a m) (hs : Separate (⟨.multiplyConstant, false, false⟩ : Fn) a) (off : Nat)
    (h : off + 4 ≤ a.n) : vectorMultiplyConstant4 a.c.re ⟨a.p1 + off, 0, 0, a.y + off⟩ (written (⟨.multiplyConstant, false, false⟩ : Fn) a m off) =
      .ok (⟨a.p1 + (off + 4), 0, 0, a.y + (off + 4)⟩, written (⟨.multiplyConstant, false, false⟩ : Fn) a m (off + 4)) := by
  unfold vectorMultiplyConstant4
  dsimp only
  rw [vld1_real rfl hacc (p := a.p1) (by simp [vectors, Op.arity]) h, Outcome.ok_bind]
  rw [vst1_real (fn := (⟨.multiplyConstant, false, false⟩ : Fn)) rfl hacc h _ (by
    intro i hi
    simp only [vadd, vmul, vmla, dup]
    rw [read_real rfl hs (p := a.p1) (by simp [vectors, Op.arity]) (by omega)]
    simp only [realResult, formula, operand, Op.arity, Nat.add_zero]
    simp; try ring), Outcome.ok_bind, Outcome.pure_eq]
  simp only [Nat.add_assoc]

theorem vectorMultiplyConstant2_ok (a : Args K) (m : Memory K) (hacc : Accessible (⟨.multiplyConstant, false, false⟩ : Fn) a m) (hs : Separate (⟨.multiplyConstant, false, false⟩ : Fn) a) (off : Nat)
    (h : off + 2 ≤ a.n) : vectorMultiplyConstant2 a.c.re ⟨a.p1 + off, 0, 0, a.y + off⟩ (written (⟨.multiplyConstant, false, false⟩ : Fn) a m off) =
      .ok (⟨a.p1 + (off + 2), 0, 0, a.y + (off + 2)⟩, written (⟨.multiplyConstant, false, false⟩ : Fn) a m (off + 2)) := by
  unfold vectorMultiplyConstant2
  dsimp only
  rw [vld1_real rfl hacc (p := a.p1) (by simp [vectors, Op.arity]) h, Outcome.ok_bind]
  rw [vst1_real (fn := (⟨.multiplyConstant, false, false⟩ : Fn)) rfl hacc h _ (by
    intro i hi
    simp only [vadd, vmul, vmla, dup]
    rw [read_real rfl hs (p := a.p1) (by simp [vectors, Op.arity]) (by omega)]
    simp only [realResult, formula, operand, Op.arity, Nat.add_zero]
    simp; try ring), Outcome.ok_bind, Outcome.pure_eq]
  simp only [Nat.add_assoc]

theorem vectorMultiplyConstant1_ok (g : Garbage K) (a : Args K) (m : Memory K) (hacc : Accessible (⟨.multiplyConstant, false, false⟩ : Fn) a m) (hs : Separate (⟨.multiplyConstant, false, false⟩ : Fn) a) (off : Nat)
    (h : off + 1 ≤ a.n) : vectorMultiplyConstant1 g a.c.re ⟨a.p1 + off, 0, 0, a.y + off⟩ (written (⟨.multiplyConstant, false, false⟩ : Fn) a m off) =
      .ok (⟨a.p1 + (off + 1), 0, 0, a.y + (off + 1)⟩, written (⟨.multiplyConstant, false, false⟩ : Fn) a m (off + 1)) := by
  unfold vectorMultiplyConstant1
  dsimp only
  rw [vld1Lane_real rfl hacc (p := a.p1) (by simp [vectors, Op.arity]) h, Outcome.ok_bind]
  rw [vst1_real (fn := (⟨.multiplyConstant, false, false⟩ : Fn)) rfl hacc h _ (by
    intro i hi
    obtain rfl : i = 0 := by omega
    simp only [vadd, vmul, vmla, dup, if_true]
    rw [read_real0 rfl hs (p := a.p1) (by simp [vectors, Op.arity]) (by omega)]
    simp only [realResult, formula, operand, Op.arity, Nat.add_zero]
    simp; try ring), Outcome.ok_bind, Outcome.pure_eq]
  simp only [Nat.add_assoc]

theorem vectorMultiplyConstant_ok (debug : Bool) (g : Garbage K) (a : Args K) (m : Memory K) (hacc : Accessible (⟨.multiplyConstant, false, false⟩ : Fn) a m) (hs : Separate (⟨.multiplyConstant, false, false⟩ : Fn) a)
    (hc : debug = true → ∀ p ∈ vectors (⟨.multiplyConstant, false, false⟩ : Fn) a, check 1 p a.alignment = true) :
    vectorMultiplyConstant debug g a.c.re a.p1 a.y a.n a.alignment m = .ok (.noError, written (⟨.multiplyConstant, false, false⟩ : Fn) a m a.n) := by
  unfold vectorMultiplyConstant
  rw [checked_ok _ _ _ _ _ _ fun hd p hp => hc hd p (by revert hp; simp [vectors, Op.arity]; try tauto)]
  conv_lhs => rw [← written_zero (⟨.multiplyConstant, false, false⟩ : Fn) a m]
  exact run4_at _ _ _ (fun off => ⟨a.p1 + off, 0, 0, a.y + off⟩) (written (⟨.multiplyConstant, false, false⟩ : Fn) a m) a.n (vectorMultiplyConstant4_ok a m hacc hs) (vectorMultiplyConstant2_ok a m hacc hs)
    (vectorMultiplyConstant1_ok g a m hacc hs)

theorem cVectorMultiplyConstant4_ok (a : Args K) (m : Memory K) (hacc : Accessible (⟨.multiplyConstant, false, true⟩ : Fn) a m) (hs : Separate (⟨.multiplyConstant, false, true⟩ : Fn) a) (off : Nat)
    (h : off + 4 ≤ a.n) : cVectorMultiplyConstant4 a.c.re a.c.im ⟨a.p1 + 2 * off, 0, 0, a.y + 2 * off⟩ (written (⟨.multiplyConstant, false, true⟩ : Fn) a m off) =
      .ok (⟨a.p1 + 2 * (off + 4), 0, 0, a.y + 2 * (off + 4)⟩, written (⟨.multiplyConstant, false, true⟩ : Fn) a m (off + 4)) := by
  unfold cVectorMultiplyConstant4
  dsimp only
  rw [vld2_complex rfl hacc (p := a.p1) (by simp [vectors, Op.arity]) h, Outcome.ok_bind]
  rw [vst2_complex (w := 4) (fn := (⟨.multiplyConstant, false, true⟩ : Fn)) rfl hacc h _ (by
    intro j hj
    simp only [vmul, vmla, vmls, dup]
    rw [read_re rfl hs (p := a.p1) (by simp [vectors, Op.arity]) (by omega), read_im rfl hs (p := a.p1) (by simp [vectors, Op.arity]) (by omega)]
    simp only [complexResult, formula, operand, Op.arity, Nat.add_zero, Cx.add_re, Cx.add_im, Cx.mul_re, Cx.mul_im]
    constructor <;> (simp; try ring)), Outcome.ok_bind, Outcome.pure_eq]
  simp only [Nat.mul_add, ← Nat.add_assoc]

theorem cVectorMultiplyConstant2_ok (a : Args K) (m : Memory K) (hacc : Accessible (⟨.multiplyConstant, false, true⟩ : Fn) a m) (hs : Separate (⟨.multiplyConstant, false, true⟩ : Fn) a) (off : Nat)
    (h : off + 2 ≤ a.n) : cVectorMultiplyConstant2 a.c.re a.c.im ⟨a.p1 + 2 * off, 0, 0, a.y + 2 * off⟩ (written (⟨.multiplyConstant, false, true⟩ : Fn) a m off) =
      .ok (⟨a.p1 + 2 * (off + 2), 0, 0, a.y + 2 * (off + 2)⟩, written (⟨.multiplyConstant, false, true⟩ : Fn) a m (off + 2)) := by
  unfold cVectorMultiplyConstant2
  dsimp only
  rw [vld2_complex rfl hacc (p := a.p1) (by simp [vectors, Op.arity]) h, Outcome.ok_bind]
  rw [vst2_complex (w := 2) (fn := (⟨.multiplyConstant, false, true⟩ : Fn)) rfl hacc h _ (by
    intro j hj
    simp only [vmul, vmla, vmls, dup]
    rw [read_re rfl hs (p := a.p1) (by simp [vectors, Op.arity]) (by omega), read_im rfl hs (p := a.p1) (by simp [vectors, Op.arity]) (by omega)]
    simp only [complexResult, formula, operand, Op.arity, Nat.add_zero, Cx.add_re, Cx.add_im, Cx.mul_re, Cx.mul_im]
    constructor <;> (simp; try ring)), Outcome.ok_bind, Outcome.pure_eq]
  simp only [Nat.mul_add, ← Nat.add_assoc]

theorem cVectorMultiplyConstant1_ok (g : Garbage K) (a : Args K) (m : Memory K) (hacc : Accessible (⟨.multiplyConstant, false, true⟩ : Fn) a m) (hs : Separate (⟨.multiplyConstant, false, true⟩ : Fn) a) (off : Nat)
    (h : off + 1 ≤ a.n) : cVectorMultiplyConstant1 g a.c.re a.c.im ⟨a.p1 + 2 * off, 0, 0, a.y + 2 * off⟩ (written (⟨.multiplyConstant, false, true⟩ : Fn) a m off) =
      .ok (⟨a.p1 + 2 * (off + 1), 0, 0, a.y + 2 * (off + 1)⟩, written (⟨.multiplyConstant, false, true⟩ : Fn) a m (off + 1)) := by
  unfold cVectorMultiplyConstant1
  dsimp only
  rw [vld2Lane_complex rfl hacc (p := a.p1) (by simp [vectors, Op.arity]) h, Outcome.ok_bind]
  rw [vst2_complex (w := 1) (fn := (⟨.multiplyConstant, false, true⟩ : Fn)) rfl hacc h _ (by
    intro j hj
    obtain rfl : j = 0 := by omega
    simp only [vmul, vmla, vmls, dup, if_true]
    rw [read_re0 rfl hs (p := a.p1) (by simp [vectors, Op.arity]) (by omega), read_im0 rfl hs (p := a.p1) (by simp [vectors, Op.arity]) (by omega)]
    simp only [complexResult, formula, operand, Op.arity, Nat.add_zero, Cx.add_re, Cx.add_im, Cx.mul_re, Cx.mul_im]
    constructor <;> (simp; try ring)), Outcome.ok_bind, Outcome.pure_eq]
  simp only [Nat.mul_add, ← Nat.add_assoc]

theorem cVectorMultiplyConstant_ok (debug : Bool) (g : Garbage K) (a : Args K) (m : Memory K) (hacc : Accessible (⟨.multiplyConstant, false, true⟩ : Fn) a m) (hs : Separate (⟨.multiplyConstant, false, true⟩ : Fn) a)
    (hc : debug = true → ∀ p ∈ vectors (⟨.multiplyConstant, false, true⟩ : Fn) a, check 2 p a.alignment = true) :
    cVectorMultiplyConstant debug g a.c.re a.c.im a.p1 a.y a.n a.alignment m = .ok (.noError, written (⟨.multiplyConstant, false, true⟩ : Fn) a m a.n) := by
  unfold cVectorMultiplyConstant
  rw [checked_ok _ _ _ _ _ _ fun hd p hp => hc hd p (by revert hp; simp [vectors, Op.arity]; try tauto)]
  conv_lhs => rw [← written_zero (⟨.multiplyConstant, false, true⟩ : Fn) a m]
  exact run4_at _ _ _ (fun off => ⟨a.p1 + 2 * off, 0, 0, a.y + 2 * off⟩) (written (⟨.multiplyConstant, false, true⟩ : Fn) a m) a.n (cVectorMultiplyConstant4_ok a m hacc hs) (cVectorMultiplyConstant2_ok a m hacc hs)
    (cVectorMultiplyConstant1_ok g a m hacc hs)

theorem vectorMultiplyConstantInplace4_ok (a : Args K) (m : Memory K) (hacc : Accessible (⟨.multiplyConstant, true, false⟩ : Fn) a m) (hs : Separate (⟨.multiplyConstant, true, false⟩ : Fn) a) (off : Nat)
    (h : off + 4 ≤ a.n) : vectorMultiplyConstantInplace4 a.c.re ⟨0, 0, 0, a.y + off⟩ (written (⟨.multiplyConstant, true, false⟩ : Fn) a m off) =
      .ok (⟨0, 0, 0, a.y + (off + 4)⟩, written (⟨.multiplyConstant, true, false⟩ : Fn) a m (off + 4)) := by
  unfold vectorMultiplyConstantInplace4
  dsimp only
  rw [vld1_real rfl hacc (p := a.y) (by simp [vectors, Op.arity]) h, Outcome.ok_bind]
  rw [vst1_real (fn := (⟨.multiplyConstant, true, false⟩ : Fn)) rfl hacc h _ (by
    intro i hi
    simp only [vadd, vmul, vmla, dup]
    rw [read_real rfl hs (p := a.y) (by simp [vectors, Op.arity]) (by omega)]
    simp only [realResult, formula, operand, Op.arity, Nat.add_zero]
    simp; try ring), Outcome.ok_bind, Outcome.pure_eq]
  simp only [Nat.add_assoc]

theorem vectorMultiplyConstantInplace2_ok (a : Args K) (m : Memory K) (hacc : Accessible (⟨.multiplyConstant, true, false⟩ : Fn) a m) (hs : Separate (⟨.multiplyConstant, true, false⟩ : Fn) a) (off : Nat)
    (h : off + 2 ≤ a.n) : vectorMultiplyConstantInplace2 a.c.re ⟨0, 0, 0, a.y + off⟩ (written (⟨.multiplyConstant, true, false⟩ : Fn) a m off) =
      .ok (⟨0, 0, 0, a.y + (off + 2)⟩, written (⟨.multiplyConstant, true, false⟩ : Fn) a m (off + 2)) := by
  unfold vectorMultiplyConstantInplace2
  dsimp only
  rw [vld1_real rfl hacc (p := a.y) (by simp [vectors, Op.arity]) h, Outcome.ok_bind]
  rw [vst1_real (fn := (⟨.multiplyConstant, true, false⟩ : Fn)) rfl hacc h _ (by
    intro i hi
    simp only [vadd, vmul, vmla, dup]
    rw [read_real rfl hs (p := a.y) (by simp [vectors, Op.arity]) (by omega)]
    simp only [realResult, formula, operand, Op.arity, Nat.add_zero]
    simp; try ring), Outcome.ok_bind, Outcome.pure_eq]
  simp only [Nat.add_assoc]

theorem vectorMultiplyConstantInplace1_ok (g : Garbage K) (a : Args K) (m : Memory K) (hacc : Accessible (⟨.multiplyConstant, true, false⟩ : Fn) a m) (hs : Separate (⟨.multiplyConstant, true, false⟩ : Fn) a) (off : Nat)
    (h : off + 1 ≤ a.n) : vectorMultiplyConstantInplace1 g a.c.re ⟨0, 0, 0, a.y + off⟩ (written (⟨.multiplyConstant, true, false⟩ : Fn) a m off) =
      .ok (⟨0, 0, 0, a.y + (off + 1)⟩, written (⟨.multiplyConstant, true, false⟩ : Fn) a m (off + 1)) := by
  unfold vectorMultiplyConstantInplace1
  dsimp only
  rw [vld1Lane_real rfl hacc (p := a.y) (by simp [vectors, Op.arity]) h, Outcome.ok_bind]
  rw [vst1_real (fn := (⟨.multiplyConstant, true, false⟩ : Fn)) rfl hacc h _ (by
    intro i hi
    obtain rfl : i = 0 := by omega
    simp only [vadd, vmul, vmla, dup, if_true]
    rw [read_real0 rfl hs (p := a.y) (by simp [vectors, Op.arity]) (by omega)]
    simp only [realResult, formula, operand, Op.arity, Nat.add_zero]
    simp; try ring), Outcome.ok_bind, Outcome.pure_eq]
  simp only [Nat.add_assoc]

theorem vectorMultiplyConstantInplace_ok (debug : Bool) (g : Garbage K) (a : Args K) (m : Memory K) (hacc : Accessible (⟨.multiplyConstant, true, false⟩ : Fn) a m) (hs : Separate (⟨.multiplyConstant, true, false⟩ : Fn) a)
    (hc : debug = true → ∀ p ∈ vectors (⟨.multiplyConstant, true, false⟩ : Fn) a, check 1 p a.alignment = true) :
    vectorMultiplyConstantInplace debug g a.c.re a.y a.n a.alignment m = .ok (.noError, written (⟨.multiplyConstant, true, false⟩ : Fn) a m a.n) := by
  unfold vectorMultiplyConstantInplace
  rw [checked_ok _ _ _ _ _ _ fun hd p hp => hc hd p (by revert hp; simp [vectors, Op.arity]; try tauto)]
  conv_lhs => rw [← written_zero (⟨.multiplyConstant, true, false⟩ : Fn) a m]
  exact run4_at _ _ _ (fun off => ⟨0, 0, 0, a.y + off⟩) (written (⟨.multiplyConstant, true, false⟩ : Fn) a m) a.n (vectorMultiplyConstantInplace4_ok a m hacc hs) (vectorMultiplyConstantInplace2_ok a m hacc hs)
    (vectorMultiplyConstantInplace1_ok g a m hacc hs)

theorem cVectorMultiplyConstantInplace4_ok (a : Args K) (m : Memory K) (hacc : Accessible (⟨.multiplyConstant, true, true⟩ : Fn) a m) (hs : Separate (⟨.multiplyConstant, true, true⟩ : Fn) a) (off : Nat)
    (h : off + 4 ≤ a.n) : cVectorMultiplyConstantInplace4 a.c.re a.c.im ⟨0, 0, 0, a.y + 2 * off⟩ (written (⟨.multiplyConstant, true, true⟩ : Fn) a m off) =
      .ok (⟨0, 0, 0, a.y + 2 * (off + 4)⟩, written (⟨.multiplyConstant, true, true⟩ : Fn) a m (off + 4)) := by
  unfold cVectorMultiplyConstantInplace4
  dsimp only
  rw [vld2_complex rfl hacc (p := a.y) (by simp [vectors, Op.arity]) h, Outcome.ok_bind]
  rw [vst2_complex (w := 4) (fn := (⟨.multiplyConstant, true, true⟩ : Fn)) rfl hacc h _ (by
    intro j hj
    simp only [vmul, vmla, vmls, dup]
    rw [read_re rfl hs (p := a.y) (by simp [vectors, Op.arity]) (by omega), read_im rfl hs (p := a.y) (by simp [vectors, Op.arity]) (by omega)]
    simp only [complexResult, formula, operand, Op.arity, Nat.add_zero, Cx.add_re, Cx.add_im, Cx.mul_re, Cx.mul_im]
    constructor <;> (simp; try ring)), Outcome.ok_bind, Outcome.pure_eq]
  simp only [Nat.mul_add, ← Nat.add_assoc]

theorem cVectorMultiplyConstantInplace2_ok (a : Args K) (m : Memory K) (hacc : Accessible (⟨.multiplyConstant, true, true⟩ : Fn) a m) (hs : Separate (⟨.multiplyConstant, true, true⟩ : Fn) a) (off : Nat)
    (h : off + 2 ≤ a.n) : cVectorMultiplyConstantInplace2 a.c.re a.c.im ⟨0, 0, 0, a.y + 2 * off⟩ (written (⟨.multiplyConstant, true, true⟩ : Fn) a m off) =
      .ok (⟨0, 0, 0, a.y + 2 * (off + 2)⟩, written (⟨.multiplyConstant, true, true⟩ : Fn) a m (off + 2)) := by
  unfold cVectorMultiplyConstantInplace2
  dsimp only
  rw [vld2_complex rfl hacc (p := a.y) (by simp [vectors, Op.arity]) h, Outcome.ok_bind]
  rw [vst2_complex (w := 2) (fn := (⟨.multiplyConstant, true, true⟩ : Fn)) rfl hacc h _ (by
    intro j hj
    simp only [vmul, vmla, vmls, dup]
    rw [read_re rfl hs (p := a.y) (by simp [vectors, Op.arity]) (by omega), read_im rfl hs (p := a.y) (by simp [vectors, Op.arity]) (by omega)]
    simp only [complexResult, formula, operand, Op.arity, Nat.add_zero, Cx.add_re, Cx.add_im, Cx.mul_re, Cx.mul_im]
    constructor <;> (simp; try ring)), Outcome.ok_bind, Outcome.pure_eq]
  simp only [Nat.mul_add, ← Nat.add_assoc]

theorem cVectorMultiplyConstantInplace1_ok (g : Garbage K) (a : Args K) (m : Memory K) (hacc : Accessible (⟨.multiplyConstant, true, true⟩ : Fn) a m) (hs : Separate (⟨.multiplyConstant, true, true⟩ : Fn) a) (off : Nat)
    (h : off + 1 ≤ a.n) : cVectorMultiplyConstantInplace1 g a.c.re a.c.im ⟨0, 0, 0, a.y + 2 * off⟩ (written (⟨.multiplyConstant, true, true⟩ : Fn) a m off) =
      .ok (⟨0, 0, 0, a.y + 2 * (off + 1)⟩, written (⟨.multiplyConstant, true, true⟩ : Fn) a m (off + 1)) := by
  unfold cVectorMultiplyConstantInplace1
  dsimp only
  rw [vld2Lane_complex rfl hacc (p := a.y) (by simp [vectors, Op.arity]) h, Outcome.ok_bind]
  rw [vst2_complex (w := 1) (fn := (⟨.multiplyConstant, true, true⟩ : Fn)) rfl hacc h _ (by
    intro j hj
    obtain rfl : j = 0 := by omega
    simp only [vmul, vmla, vmls, dup, if_true]
    rw [read_re0 rfl hs (p := a.y) (by simp [vectors, Op.arity]) (by omega), read_im0 rfl hs (p := a.y) (by simp [vectors, Op.arity]) (by omega)]
    simp only [complexResult, formula, operand, Op.arity, Nat.add_zero, Cx.add_re, Cx.add_im, Cx.mul_re, Cx.mul_im]
    constructor <;> (simp; try ring)), Outcome.ok_bind, Outcome.pure_eq]
  simp only [Nat.mul_add, ← Nat.add_assoc]

theorem cVectorMultiplyConstantInplace_ok (debug : Bool) (g : Garbage K) (a : Args K) (m : Memory K) (hacc : Accessible (⟨.multiplyConstant, true, true⟩ : Fn) a m) (hs : Separate (⟨.multiplyConstant, true, true⟩ : Fn) a)
    (hc : debug = true → ∀ p ∈ vectors (⟨.multiplyConstant, true, true⟩ : Fn) a, check 2 p a.alignment = true) :
    cVectorMultiplyConstantInplace debug g a.c.re a.c.im a.y a.n a.alignment m = .ok (.noError, written (⟨.multiplyConstant, true, true⟩ : Fn) a m a.n) := by
  unfold cVectorMultiplyConstantInplace
  rw [checked_ok _ _ _ _ _ _ fun hd p hp => hc hd p (by revert hp; simp [vectors, Op.arity]; try tauto)]
  conv_lhs => rw [← written_zero (⟨.multiplyConstant, true, true⟩ : Fn) a m]
  exact run4_at _ _ _ (fun off => ⟨0, 0, 0, a.y + 2 * off⟩) (written (⟨.multiplyConstant, true, true⟩ : Fn) a m) a.n (cVectorMultiplyConstantInplace4_ok a m hacc hs) (cVectorMultiplyConstantInplace2_ok a m hacc hs)
    (cVectorMultiplyConstantInplace1_ok g a m hacc hs)

theorem vectorMultiplyAdd4_ok (a : Args K) (m : Memory K) (hacc : Accessible (⟨.multiplyAdd, false, false⟩ : Fn) a m) (hs : Separate (⟨.multiplyAdd, false, false⟩ : Fn) a) (off : Nat)
    (h : off + 4 ≤ a.n) : vectorMultiplyAdd4 ⟨a.p1 + off, a.p2 + off, a.p3 + off, a.y + off⟩ (written (⟨.multiplyAdd, false, false⟩ : Fn) a m off) =
      .ok (⟨a.p1 + (off + 4), a.p2 + (off + 4), a.p3 + (off + 4), a.y + (off + 4)⟩, written (⟨.multiplyAdd, false, false⟩ : Fn) a m (off + 4)) := by
  unfold vectorMultiplyAdd4
  dsimp only
  rw [vld1_real rfl hacc (p := a.p1) (by simp [vectors, Op.arity]) h, Outcome.ok_bind, vld1_real rfl hacc (p := a.p2) (by simp [vectors, Op.arity]) h, Outcome.ok_bind, vld1_real rfl hacc (p := a.p3) (by simp [vectors, Op.arity]) h, Outcome.ok_bind]
  rw [vst1_real (fn := (⟨.multiplyAdd, false, false⟩ : Fn)) rfl hacc h _ (by
    intro i hi
    simp only [vadd, vmul, vmla, dup]
    rw [read_real rfl hs (p := a.p1) (by simp [vectors, Op.arity]) (by omega), read_real rfl hs (p := a.p2) (by simp [vectors, Op.arity]) (by omega), read_real rfl hs (p := a.p3) (by simp [vectors, Op.arity]) (by omega)]
    simp only [realResult, formula, operand, Op.arity, Nat.add_zero]
    simp; try ring), Outcome.ok_bind, Outcome.pure_eq]
  simp only [Nat.add_assoc]

theorem vectorMultiplyAdd2_ok (a : Args K) (m : Memory K) (hacc : Accessible (⟨.multiplyAdd, false, false⟩ : Fn) a m) (hs : Separate (⟨.multiplyAdd, false, false⟩ : Fn) a) (off : Nat)
    (h : off + 2 ≤ a.n) : vectorMultiplyAdd2 ⟨a.p1 + off, a.p2 + off, a.p3 + off, a.y + off⟩ (written (⟨.multiplyAdd, false, false⟩ : Fn) a m off) =
      .ok (⟨a.p1 + (off + 2), a.p2 + (off + 2), a.p3 + (off + 2), a.y + (off + 2)⟩, written (⟨.multiplyAdd, false, false⟩ : Fn) a m (off + 2)) := by
  unfold vectorMultiplyAdd2
  dsimp only
  rw [vld1_real rfl hacc (p := a.p1) (by simp [vectors, Op.arity]) h, Outcome.ok_bind, vld1_real rfl hacc (p := a.p2) (by simp [vectors, Op.arity]) h, Outcome.ok_bind, vld1_real rfl hacc (p := a.p3) (by simp [vectors, Op.arity]) h, Outcome.ok_bind]
  rw [vst1_real (fn := (⟨.multiplyAdd, false, false⟩ : Fn)) rfl hacc h _ (by
    intro i hi
    simp only [vadd, vmul, vmla, dup]
    rw [read_real rfl hs (p := a.p1) (by simp [vectors, Op.arity]) (by omega), read_real rfl hs (p := a.p2) (by simp [vectors, Op.arity]) (by omega), read_real rfl hs (p := a.p3) (by simp [vectors, Op.arity]) (by omega)]
    simp only [realResult, formula, operand, Op.arity, Nat.add_zero]
    simp; try ring), Outcome.ok_bind, Outcome.pure_eq]
  simp only [Nat.add_assoc]

theorem vectorMultiplyAdd1_ok (g : Garbage K) (a : Args K) (m : Memory K) (hacc : Accessible (⟨.multiplyAdd, false, false⟩ : Fn) a m) (hs : Separate (⟨.multiplyAdd, false, false⟩ : Fn) a) (off : Nat)
    (h : off + 1 ≤ a.n) : vectorMultiplyAdd1 g ⟨a.p1 + off, a.p2 + off, a.p3 + off, a.y + off⟩ (written (⟨.multiplyAdd, false, false⟩ : Fn) a m off) =
      .ok (⟨a.p1 + (off + 1), a.p2 + (off + 1), a.p3 + (off + 1), a.y + (off + 1)⟩, written (⟨.multiplyAdd, false, false⟩ : Fn) a m (off + 1)) := by
  unfold vectorMultiplyAdd1
  dsimp only
  rw [vld1Lane_real rfl hacc (p := a.p1) (by simp [vectors, Op.arity]) h, Outcome.ok_bind, vld1Lane_real rfl hacc (p := a.p2) (by simp [vectors, Op.arity]) h, Outcome.ok_bind, vld1Lane_real rfl hacc (p := a.p3) (by simp [vectors, Op.arity]) h, Outcome.ok_bind]
  rw [vst1_real (fn := (⟨.multiplyAdd, false, false⟩ : Fn)) rfl hacc h _ (by
    intro i hi
    obtain rfl : i = 0 := by omega
    simp only [vadd, vmul, vmla, dup, if_true]
    rw [read_real0 rfl hs (p := a.p1) (by simp [vectors, Op.arity]) (by omega), read_real0 rfl hs (p := a.p2) (by simp [vectors, Op.arity]) (by omega), read_real0 rfl hs (p := a.p3) (by simp [vectors, Op.arity]) (by omega)]
    simp only [realResult, formula, operand, Op.arity, Nat.add_zero]
    simp; try ring), Outcome.ok_bind, Outcome.pure_eq]
  simp only [Nat.add_assoc]

theorem vectorMultiplyAdd_ok (debug : Bool) (g : Garbage K) (a : Args K) (m : Memory K) (hacc : Accessible (⟨.multiplyAdd, false, false⟩ : Fn) a m) (hs : Separate (⟨.multiplyAdd, false, false⟩ : Fn) a)
    (hc : debug = true → ∀ p ∈ vectors (⟨.multiplyAdd, false, false⟩ : Fn) a, check 1 p a.alignment = true) :
    vectorMultiplyAdd debug g a.p1 a.p2 a.p3 a.y a.n a.alignment m = .ok (.noError, written (⟨.multiplyAdd, false, false⟩ : Fn) a m a.n) := by
  unfold vectorMultiplyAdd
  rw [checked_ok _ _ _ _ _ _ fun hd p hp => hc hd p (by revert hp; simp [vectors, Op.arity]; try tauto)]
  conv_lhs => rw [← written_zero (⟨.multiplyAdd, false, false⟩ : Fn) a m]
  exact run4_at _ _ _ (fun off => ⟨a.p1 + off, a.p2 + off, a.p3 + off, a.y + off⟩) (written (⟨.multiplyAdd, false, false⟩ : Fn) a m) a.n (vectorMultiplyAdd4_ok a m hacc hs) (vectorMultiplyAdd2_ok a m hacc hs)
    (vectorMultiplyAdd1_ok g a m hacc hs)

theorem cVectorMultiplyAdd4_ok (a : Args K) (m : Memory K) (hacc : Accessible (⟨.multiplyAdd, false, true⟩ : Fn) a m) (hs : Separate (⟨.multiplyAdd, false, true⟩ : Fn) a) (off : Nat)
    (h : off + 4 ≤ a.n) : cVectorMultiplyAdd4 ⟨a.p1 + 2 * off, a.p2 + 2 * off, a.p3 + 2 * off, a.y + 2 * off⟩ (written (⟨.multiplyAdd, false, true⟩ : Fn) a m off) =
      .ok (⟨a.p1 + 2 * (off + 4), a.p2 + 2 * (off + 4), a.p3 + 2 * (off + 4), a.y + 2 * (off + 4)⟩, written (⟨.multiplyAdd, false, true⟩ : Fn) a m (off + 4)) := by
  unfold cVectorMultiplyAdd4
  dsimp only
  rw [vld2_complex rfl hacc (p := a.p1) (by simp [vectors, Op.arity]) h, Outcome.ok_bind, vld2_complex rfl hacc (p := a.p2) (by simp [vectors, Op.arity]) h, Outcome.ok_bind, vld2_complex rfl hacc (p := a.p3) (by simp [vectors, Op.arity]) h, Outcome.ok_bind]
  rw [vst2_complex (w := 4) (fn := (⟨.multiplyAdd, false, true⟩ : Fn)) rfl hacc h _ (by
    intro j hj
    simp only [vmul, vmla, vmls, dup]
    rw [read_re rfl hs (p := a.p1) (by simp [vectors, Op.arity]) (by omega), read_im rfl hs (p := a.p1) (by simp [vectors, Op.arity]) (by omega), read_re rfl hs (p := a.p2) (by simp [vectors, Op.arity]) (by omega), read_im rfl hs (p := a.p2) (by simp [vectors, Op.arity]) (by omega), read_re rfl hs (p := a.p3) (by simp [vectors, Op.arity]) (by omega), read_im rfl hs (p := a.p3) (by simp [vectors, Op.arity]) (by omega)]
    simp only [complexResult, formula, operand, Op.arity, Nat.add_zero, Cx.add_re, Cx.add_im, Cx.mul_re, Cx.mul_im]
    constructor <;> (simp; try ring)), Outcome.ok_bind, Outcome.pure_eq]
  simp only [Nat.mul_add, ← Nat.add_assoc]

theorem cVectorMultiplyAdd2_ok (a : Args K) (m : Memory K) (hacc : Accessible (⟨.multiplyAdd, false, true⟩ : Fn) a m) (hs : Separate (⟨.multiplyAdd, false, true⟩ : Fn) a) (off : Nat)
    (h : off + 2 ≤ a.n) : cVectorMultiplyAdd2 ⟨a.p1 + 2 * off, a.p2 + 2 * off, a.p3 + 2 * off, a.y + 2 * off⟩ (written (⟨.multiplyAdd, false, true⟩ : Fn) a m off) =
      .ok (⟨a.p1 + 2 * (off + 2), a.p2 + 2 * (off + 2), a.p3 + 2 * (off + 2), a.y + 2 * (off + 2)⟩, written (⟨.multiplyAdd, false, true⟩ : Fn) a m (off + 2)) := by
  unfold cVectorMultiplyAdd2
  dsimp only
  rw [vld2_complex rfl hacc (p := a.p1) (by simp [vectors, Op.arity]) h, Outcome.ok_bind, vld2_complex rfl hacc (p := a.p2) (by simp [vectors, Op.arity]) h, Outcome.ok_bind, vld2_complex rfl hacc (p := a.p3) (by simp [vectors, Op.arity]) h, Outcome.ok_bind]
  rw [vst2_complex (w := 2) (fn := (⟨.multiplyAdd, false, true⟩ : Fn)) rfl hacc h _ (by
    intro j hj
    simp only [vmul, vmla, vmls, dup]
    rw [read_re rfl hs (p := a.p1) (by simp [vectors, Op.arity]) (by omega), read_im rfl hs (p := a.p1) (by simp [vectors, Op.arity]) (by omega), read_re rfl hs (p := a.p2) (by simp [vectors, Op.arity]) (by omega), read_im rfl hs (p := a.p2) (by simp [vectors, Op.arity]) (by omega), read_re rfl hs (p := a.p3) (by simp [vectors, Op.arity]) (by omega), read_im rfl hs (p := a.p3) (by simp [vectors, Op.arity]) (by omega)]
    simp only [complexResult, formula, operand, Op.arity, Nat.add_zero, Cx.add_re, Cx.add_im, Cx.mul_re, Cx.mul_im]
    constructor <;> (simp; try ring)), Outcome.ok_bind, Outcome.pure_eq]
  simp only [Nat.mul_add, ← Nat.add_assoc]

theorem cVectorMultiplyAdd1_ok (g : Garbage K) (a : Args K) (m : Memory K) (hacc : Accessible (⟨.multiplyAdd, false, true⟩ : Fn) a m) (hs : Separate (⟨.multiplyAdd, false, true⟩ : Fn) a) (off : Nat)
    (h : off + 1 ≤ a.n) : cVectorMultiplyAdd1 g ⟨a.p1 + 2 * off, a.p2 + 2 * off, a.p3 + 2 * off, a.y + 2 * off⟩ (written (⟨.multiplyAdd, false, true⟩ : Fn) a m off) =
      .ok (⟨a.p1 + 2 * (off + 1), a.p2 + 2 * (off + 1), a.p3 + 2 * (off + 1), a.y + 2 * (off + 1)⟩, written (⟨.multiplyAdd, false, true⟩ : Fn) a m (off + 1)) := by
  unfold cVectorMultiplyAdd1
  dsimp only
  rw [vld2Lane_complex rfl hacc (p := a.p1) (by simp [vectors, Op.arity]) h, Outcome.ok_bind, vld2Lane_complex rfl hacc (p := a.p2) (by simp [vectors, Op.arity]) h, Outcome.ok_bind, vld2Lane_complex rfl hacc (p := a.p3) (by simp [vectors, Op.arity]) h, Outcome.ok_bind]
  rw [vst2_complex (w := 1) (fn := (⟨.multiplyAdd, false, true⟩ : Fn)) rfl hacc h _ (by
    intro j hj
    obtain rfl : j = 0 := by omega
    simp only [vmul, vmla, vmls, dup, if_true]
    rw [read_re0 rfl hs (p := a.p1) (by simp [vectors, Op.arity]) (by omega), read_im0 rfl hs (p := a.p1) (by simp [vectors, Op.arity]) (by omega), read_re0 rfl hs (p := a.p2) (by simp [vectors, Op.arity]) (by omega), read_im0 rfl hs (p := a.p2) (by simp [vectors, Op.arity]) (by omega), read_re0 rfl hs (p := a.p3) (by simp [vectors, Op.arity]) (by omega), read_im0 rfl hs (p := a.p3) (by simp [vectors, Op.arity]) (by omega)]
    simp only [complexResult, formula, operand, Op.arity, Nat.add_zero, Cx.add_re, Cx.add_im, Cx.mul_re, Cx.mul_im]
    constructor <;> (simp; try ring)), Outcome.ok_bind, Outcome.pure_eq]
  simp only [Nat.mul_add, ← Nat.add_assoc]

theorem cVectorMultiplyAdd_ok (debug : Bool) (g : Garbage K) (a : Args K) (m : Memory K) (hacc : Accessible (⟨.multiplyAdd, false, true⟩ : Fn) a m) (hs : Separate (⟨.multiplyAdd, false, true⟩ : Fn) a)
    (hc : debug = true → ∀ p ∈ vectors (⟨.multiplyAdd, false, true⟩ : Fn) a, check 2 p a.alignment = true) :
    cVectorMultiplyAdd debug g a.p1 a.p2 a.p3 a.y a.n a.alignment m = .ok (.noError, written (⟨.multiplyAdd, false, true⟩ : Fn) a m a.n) := by
  unfold cVectorMultiplyAdd
  rw [checked_ok _ _ _ _ _ _ fun hd p hp => hc hd p (by revert hp; simp [vectors, Op.arity]; try tauto)]
  conv_lhs => rw [← written_zero (⟨.multiplyAdd, false, true⟩ : Fn) a m]
  exact run4_at _ _ _ (fun off => ⟨a.p1 + 2 * off, a.p2 + 2 * off, a.p3 + 2 * off, a.y + 2 * off⟩) (written (⟨.multiplyAdd, false, true⟩ : Fn) a m) a.n (cVectorMultiplyAdd4_ok a m hacc hs) (cVectorMultiplyAdd2_ok a m hacc hs)
    (cVectorMultiplyAdd1_ok g a m hacc hs)

theorem vectorMultiplyAddInplace4_ok (a : Args K) (m : Memory K) (hacc : Accessible (⟨.multiplyAdd, true, false⟩ : Fn) a m) (hs : Separate (⟨.multiplyAdd, true, false⟩ : Fn) a) (off : Nat)
    (h : off + 4 ≤ a.n) : vectorMultiplyAddInplace4 ⟨a.p1 + off, a.p2 + off, 0, a.y + off⟩ (written (⟨.multiplyAdd, true, false⟩ : Fn) a m off) =
      .ok (⟨a.p1 + (off + 4), a.p2 + (off + 4), 0, a.y + (off + 4)⟩, written (⟨.multiplyAdd, true, false⟩ : Fn) a m (off + 4)) := by
  unfold vectorMultiplyAddInplace4
  dsimp only
  rw [vld1_real rfl hacc (p := a.p1) (by simp [vectors, Op.arity]) h, Outcome.ok_bind, vld1_real rfl hacc (p := a.p2) (by simp [vectors, Op.arity]) h, Outcome.ok_bind, vld1_real rfl hacc (p := a.y) (by simp [vectors, Op.arity]) h, Outcome.ok_bind]
  rw [vst1_real (fn := (⟨.multiplyAdd, true, false⟩ : Fn)) rfl hacc h _ (by
    intro i hi
    simp only [vadd, vmul, vmla, dup]
    rw [read_real rfl hs (p := a.p1) (by simp [vectors, Op.arity]) (by omega), read_real rfl hs (p := a.p2) (by simp [vectors, Op.arity]) (by omega), read_real rfl hs (p := a.y) (by simp [vectors, Op.arity]) (by omega)]
    simp only [realResult, formula, operand, Op.arity, Nat.add_zero]
    simp; try ring), Outcome.ok_bind, Outcome.pure_eq]
  simp only [Nat.add_assoc]

theorem vectorMultiplyAddInplace2_ok (a : Args K) (m : Memory K) (hacc : Accessible (⟨.multiplyAdd, true, false⟩ : Fn) a m) (hs : Separate (⟨.multiplyAdd, true, false⟩ : Fn) a) (off : Nat)
    (h : off + 2 ≤ a.n) : vectorMultiplyAddInplace2 ⟨a.p1 + off, a.p2 + off, 0, a.y + off⟩ (written (⟨.multiplyAdd, true, false⟩ : Fn) a m off) =
      .ok (⟨a.p1 + (off + 2), a.p2 + (off + 2), 0, a.y + (off + 2)⟩, written (⟨.multiplyAdd, true, false⟩ : Fn) a m (off + 2)) := by
  unfold vectorMultiplyAddInplace2
  dsimp only
  rw [vld1_real rfl hacc (p := a.p1) (by simp [vectors, Op.arity]) h, Outcome.ok_bind, vld1_real rfl hacc (p := a.p2) (by simp [vectors, Op.arity]) h, Outcome.ok_bind, vld1_real rfl hacc (p := a.y) (by simp [vectors, Op.arity]) h, Outcome.ok_bind]
  rw [vst1_real (fn := (⟨.multiplyAdd, true, false⟩ : Fn)) rfl hacc h _ (by
    intro i hi
    simp only [vadd, vmul, vmla, dup]
    rw [read_real rfl hs (p := a.p1) (by simp [vectors, Op.arity]) (by omega), read_real rfl hs (p := a.p2) (by simp [vectors, Op.arity]) (by omega), read_real rfl hs (p := a.y) (by simp [vectors, Op.arity]) (by omega)]
    simp only [realResult, formula, operand, Op.arity, Nat.add_zero]
    simp; try ring), Outcome.ok_bind, Outcome.pure_eq]
  simp only [Nat.add_assoc]

theorem vectorMultiplyAddInplace1_ok (g : Garbage K) (a : Args K) (m : Memory K) (hacc : Accessible (⟨.multiplyAdd, true, false⟩ : Fn) a m) (hs : Separate (⟨.multiplyAdd, true, false⟩ : Fn) a) (off : Nat)
    (h : off + 1 ≤ a.n) : vectorMultiplyAddInplace1 g ⟨a.p1 + off, a.p2 + off, 0, a.y + off⟩ (written (⟨.multiplyAdd, true, false⟩ : Fn) a m off) =
      .ok (⟨a.p1 + (off + 1), a.p2 + (off + 1), 0, a.y + (off + 1)⟩, written (⟨.multiplyAdd, true, false⟩ : Fn) a m (off + 1)) := by
  unfold vectorMultiplyAddInplace1
  dsimp only
  rw [vld1Lane_real rfl hacc (p := a.p1) (by simp [vectors, Op.arity]) h, Outcome.ok_bind, vld1Lane_real rfl hacc (p := a.p2) (by simp [vectors, Op.arity]) h, Outcome.ok_bind, vld1Lane_real rfl hacc (p := a.y) (by simp [vectors, Op.arity]) h, Outcome.ok_bind]
  rw [vst1_real (fn := (⟨.multiplyAdd, true, false⟩ : Fn)) rfl hacc h _ (by
    intro i hi
    obtain rfl : i = 0 := by omega
    simp only [vadd, vmul, vmla, dup, if_true]
    rw [read_real0 rfl hs (p := a.p1) (by simp [vectors, Op.arity]) (by omega), read_real0 rfl hs (p := a.p2) (by simp [vectors, Op.arity]) (by omega), read_real0 rfl hs (p := a.y) (by simp [vectors, Op.arity]) (by omega)]
    simp only [realResult, formula, operand, Op.arity, Nat.add_zero]
    simp; try ring), Outcome.ok_bind, Outcome.pure_eq]
  simp only [Nat.add_assoc]

theorem vectorMultiplyAddInplace_ok (debug : Bool) (g : Garbage K) (a : Args K) (m : Memory K) (hacc : Accessible (⟨.multiplyAdd, true, false⟩ : Fn) a m) (hs : Separate (⟨.multiplyAdd, true, false⟩ : Fn) a)
    (hc : debug = true → ∀ p ∈ vectors (⟨.multiplyAdd, true, false⟩ : Fn) a, check 1 p a.alignment = true) :
    vectorMultiplyAddInplace debug g a.p1 a.p2 a.y a.n a.alignment m = .ok (.noError, written (⟨.multiplyAdd, true, false⟩ : Fn) a m a.n) := by
  unfold vectorMultiplyAddInplace
  rw [checked_ok _ _ _ _ _ _ fun hd p hp => hc hd p (by revert hp; simp [vectors, Op.arity]; try tauto)]
  conv_lhs => rw [← written_zero (⟨.multiplyAdd, true, false⟩ : Fn) a m]
  exact run4_at _ _ _ (fun off => ⟨a.p1 + off, a.p2 + off, 0, a.y + off⟩) (written (⟨.multiplyAdd, true, false⟩ : Fn) a m) a.n (vectorMultiplyAddInplace4_ok a m hacc hs) (vectorMultiplyAddInplace2_ok a m hacc hs)
    (vectorMultiplyAddInplace1_ok g a m hacc hs)

theorem cVectorMultiplyAddInplace4_ok (a : Args K) (m : Memory K) (hacc : Accessible (⟨.multiplyAdd, true, true⟩ : Fn) a m) (hs : Separate (⟨.multiplyAdd, true, true⟩ : Fn) a) (off : Nat)
    (h : off + 4 ≤ a.n) : cVectorMultiplyAddInplace4 ⟨a.p1 + 2 * off, a.p2 + 2 * off, 0, a.y + 2 * off⟩ (written (⟨.multiplyAdd, true, true⟩ : Fn) a m off) =
      .ok (⟨a.p1 + 2 * (off + 4), a.p2 + 2 * (off + 4), 0, a.y + 2 * (off + 4)⟩, written (⟨.multiplyAdd, true, true⟩ : Fn) a m (off + 4)) := by
  unfold cVectorMultiplyAddInplace4
  dsimp only
  rw [vld2_complex rfl hacc (p := a.p1) (by simp [vectors, Op.arity]) h, Outcome.ok_bind, vld2_complex rfl hacc (p := a.p2) (by simp [vectors, Op.arity]) h, Outcome.ok_bind, vld2_complex rfl hacc (p := a.y) (by simp [vectors, Op.arity]) h, Outcome.ok_bind]
  rw [vst2_complex (w := 4) (fn := (⟨.multiplyAdd, true, true⟩ : Fn)) rfl hacc h _ (by
    intro j hj
    simp only [vmul, vmla, vmls, dup]
    rw [read_re rfl hs (p := a.p1) (by simp [vectors, Op.arity]) (by omega), read_im rfl hs (p := a.p1) (by simp [vectors, Op.arity]) (by omega), read_re rfl hs (p := a.p2) (by simp [vectors, Op.arity]) (by omega), read_im rfl hs (p := a.p2) (by simp [vectors, Op.arity]) (by omega), read_re rfl hs (p := a.y) (by simp [vectors, Op.arity]) (by omega), read_im rfl hs (p := a.y) (by simp [vectors, Op.arity]) (by omega)]
    simp only [complexResult, formula, operand, Op.arity, Nat.add_zero, Cx.add_re, Cx.add_im, Cx.mul_re, Cx.mul_im]
    constructor <;> (simp; try ring)), Outcome.ok_bind, Outcome.pure_eq]
  simp only [Nat.mul_add, ← Nat.add_assoc]

theorem cVectorMultiplyAddInplace2_ok (a : Args K) (m : Memory K) (hacc : Accessible (⟨.multiplyAdd, true, true⟩ : Fn) a m) (hs : Separate (⟨.multiplyAdd, true, true⟩ : Fn) a) (off : Nat)
    (h : off + 2 ≤ a.n) : cVectorMultiplyAddInplace2 ⟨a.p1 + 2 * off, a.p2 + 2 * off, 0, a.y + 2 * off⟩ (written (⟨.multiplyAdd, true, true⟩ : Fn) a m off) =
      .ok (⟨a.p1 + 2 * (off + 2), a.p2 + 2 * (off + 2), 0, a.y + 2 * (off + 2)⟩, written (⟨.multiplyAdd, true, true⟩ : Fn) a m (off + 2)) := by
  unfold cVectorMultiplyAddInplace2
  dsimp only
  rw [vld2_complex rfl hacc (p := a.p1) (by simp [vectors, Op.arity]) h, Outcome.ok_bind, vld2_complex rfl hacc (p := a.p2) (by simp [vectors, Op.arity]) h, Outcome.ok_bind, vld2_complex rfl hacc (p := a.y) (by simp [vectors, Op.arity]) h, Outcome.ok_bind]
  rw [vst2_complex (w := 2) (fn := (⟨.multiplyAdd, true, true⟩ : Fn)) rfl hacc h _ (by
    intro j hj
    simp only [vmul, vmla, vmls, dup]
    rw [read_re rfl hs (p := a.p1) (by simp [vectors, Op.arity]) (by omega), read_im rfl hs (p := a.p1) (by simp [vectors, Op.arity]) (by omega), read_re rfl hs (p := a.p2) (by simp [vectors, Op.arity]) (by omega), read_im rfl hs (p := a.p2) (by simp [vectors, Op.arity]) (by omega), read_re rfl hs (p := a.y) (by simp [vectors, Op.arity]) (by omega), read_im rfl hs (p := a.y) (by simp [vectors, Op.arity]) (by omega)]
    simp only [complexResult, formula, operand, Op.arity, Nat.add_zero, Cx.add_re, Cx.add_im, Cx.mul_re, Cx.mul_im]
    constructor <;> (simp; try ring)), Outcome.ok_bind, Outcome.pure_eq]
  simp only [Nat.mul_add, ← Nat.add_assoc]

theorem cVectorMultiplyAddInplace1_ok (g : Garbage K) (a : Args K) (m : Memory K) (hacc : Accessible (⟨.multiplyAdd, true, true⟩ : Fn) a m) (hs : Separate (⟨.multiplyAdd, true, true⟩ : Fn) a) (off : Nat)
    (h : off + 1 ≤ a.n) : cVectorMultiplyAddInplace1 g ⟨a.p1 + 2 * off, a.p2 + 2 * off, 0, a.y + 2 * off⟩ (written (⟨.multiplyAdd, true, true⟩ : Fn) a m off) =
      .ok (⟨a.p1 + 2 * (off + 1), a.p2 + 2 * (off + 1), 0, a.y + 2 * (off + 1)⟩, written (⟨.multiplyAdd, true, true⟩ : Fn) a m (off + 1)) := by
  unfold cVectorMultiplyAddInplace1
  dsimp only
  rw [vld2Lane_complex rfl hacc (p := a.p1) (by simp [vectors, Op.arity]) h, Outcome.ok_bind, vld2Lane_complex rfl hacc (p := a.p2) (by simp [vectors, Op.arity]) h, Outcome.ok_bind, vld2Lane_complex rfl hacc (p := a.y) (by simp [vectors, Op.arity]) h, Outcome.ok_bind]
  rw [vst2_complex (w := 1) (fn := (⟨.multiplyAdd, true, true⟩ : Fn)) rfl hacc h _ (by
    intro j hj
    obtain rfl : j = 0 := by omega
    simp only [vmul, vmla, vmls, dup, if_true]
    rw [read_re0 rfl hs (p := a.p1) (by simp [vectors, Op.arity]) (by omega), read_im0 rfl hs (p := a.p1) (by simp [vectors, Op.arity]) (by omega), read_re0 rfl hs (p := a.p2) (by simp [vectors, Op.arity]) (by omega), read_im0 rfl hs (p := a.p2) (by simp [vectors, Op.arity]) (by omega), read_re0 rfl hs (p := a.y) (by simp [vectors, Op.arity]) (by omega), read_im0 rfl hs (p := a.y) (by simp [vectors, Op.arity]) (by omega)]
    simp only [complexResult, formula, operand, Op.arity, Nat.add_zero, Cx.add_re, Cx.add_im, Cx.mul_re, Cx.mul_im]
    constructor <;> (simp; try ring)), Outcome.ok_bind, Outcome.pure_eq]
  simp only [Nat.mul_add, ← Nat.add_assoc]

theorem cVectorMultiplyAddInplace_ok (debug : Bool) (g : Garbage K) (a : Args K) (m : Memory K) (hacc : Accessible (⟨.multiplyAdd, true, true⟩ : Fn) a m) (hs : Separate (⟨.multiplyAdd, true, true⟩ : Fn) a)
    (hc : true = true → ∀ p ∈ vectors (⟨.multiplyAdd, true, true⟩ : Fn) a, check 2 p a.alignment = true) :
    cVectorMultiplyAddInplace debug g a.p1 a.p2 a.y a.n a.alignment m = .ok (.noError, written (⟨.multiplyAdd, true, true⟩ : Fn) a m a.n) := by
  unfold cVectorMultiplyAddInplace
  rw [checked_ok _ _ _ _ _ _ fun hd p hp => hc hd p (by revert hp; simp [vectors, Op.arity]; try tauto)]
  conv_lhs => rw [← written_zero (⟨.multiplyAdd, true, true⟩ : Fn) a m]
  exact run4_at _ _ _ (fun off => ⟨a.p1 + 2 * off, a.p2 + 2 * off, 0, a.y + 2 * off⟩) (written (⟨.multiplyAdd, true, true⟩ : Fn) a m) a.n (cVectorMultiplyAddInplace4_ok a m hacc hs) (cVectorMultiplyAddInplace2_ok a m hacc hs)
    (cVectorMultiplyAddInplace1_ok g a m hacc hs)

theorem vectorMultiplyConstantAdd4_ok (a : Args K) (m : Memory K) (hacc : Accessible (⟨.multiplyConstantAdd, false, false⟩ : Fn) a m) (hs : Separate (⟨.multiplyConstantAdd, false, false⟩ : Fn) a) (off : Nat)
    (h : off + 4 ≤ a.n) : vectorMultiplyConstantAdd4 a.c.re ⟨a.p1 + off, a.p2 + off, 0, a.y + off⟩ (written (⟨.multiplyConstantAdd, false, false⟩ : Fn) a m off) =
      .ok (⟨a.p1 + (off + 4), a.p2 + (off + 4), 0, a.y + (off + 4)⟩, written (⟨.multiplyConstantAdd, false, false⟩ : Fn) a m (off + 4)) := by
  unfold vectorMultiplyConstantAdd4
  dsimp only
  rw [vld1_real rfl hacc (p := a.p1) (by simp [vectors, Op.arity]) h, Outcome.ok_bind, vld1_real rfl hacc (p := a.p2) (by simp [vectors, Op.arity]) h, Outcome.ok_bind]
  rw [vst1_real (fn := (⟨.multiplyConstantAdd, false, false⟩ : Fn)) rfl hacc h _ (by
    intro i hi
    simp only [vadd, vmul, vmla, dup]
    rw [read_real rfl hs (p := a.p1) (by simp [vectors, Op.arity]) (by omega), read_real rfl hs (p := a.p2) (by simp [vectors, Op.arity]) (by omega)]
    simp only [realResult, formula, operand, Op.arity, Nat.add_zero]
    simp; try ring), Outcome.ok_bind, Outcome.pure_eq]
  simp only [Nat.add_assoc]

theorem vectorMultiplyConstantAdd2_ok (a : Args K) (m : Memory K) (hacc : Accessible (⟨.multiplyConstantAdd, false, false⟩ : Fn) a m) (hs : Separate (⟨.multiplyConstantAdd, false, false⟩ : Fn) a) (off : Nat)
    (h : off + 2 ≤ a.n) : vectorMultiplyConstantAdd2 a.c.re ⟨a.p1 + off, a.p2 + off, 0, a.y + off⟩ (written (⟨.multiplyConstantAdd, false, false⟩ : Fn) a m off) =
      .ok (⟨a.p1 + (off + 2), a.p2 + (off + 2), 0, a.y + (off + 2)⟩, written (⟨.multiplyConstantAdd, false, false⟩ : Fn) a m (off + 2)) := by
  unfold vectorMultiplyConstantAdd2
  dsimp only
  rw [vld1_real rfl hacc (p := a.p1) (by simp [vectors, Op.arity]) h, Outcome.ok_bind, vld1_real rfl hacc (p := a.p2) (by simp [vectors, Op.arity]) h, Outcome.ok_bind]
  rw [vst1_real (fn := (⟨.multiplyConstantAdd, false, false⟩ : Fn)) rfl hacc h _ (by
    intro i hi
    simp only [vadd, vmul, vmla, dup]
    rw [read_real rfl hs (p := a.p1) (by simp [vectors, Op.arity]) (by omega), read_real rfl hs (p := a.p2) (by simp [vectors, Op.arity]) (by omega)]
    simp only [realResult, formula, operand, Op.arity, Nat.add_zero]
    simp; try ring), Outcome.ok_bind, Outcome.pure_eq]
  simp only [Nat.add_assoc]

theorem vectorMultiplyConstantAdd1_ok (g : Garbage K) (a : Args K) (m : Memory K) (hacc : Accessible (⟨.multiplyConstantAdd, false, false⟩ : Fn) a m) (hs : Separate (⟨.multiplyConstantAdd, false, false⟩ : Fn) a) (off : Nat)
    (h : off + 1 ≤ a.n) : vectorMultiplyConstantAdd1 g a.c.re ⟨a.p1 + off, a.p2 + off, 0, a.y + off⟩ (written (⟨.multiplyConstantAdd, false, false⟩ : Fn) a m off) =
      .ok (⟨a.p1 + (off + 1), a.p2 + (off + 1), 0, a.y + (off + 1)⟩, written (⟨.multiplyConstantAdd, false, false⟩ : Fn) a m (off + 1)) := by
  unfold vectorMultiplyConstantAdd1
  dsimp only
  rw [vld1Lane_real rfl hacc (p := a.p1) (by simp [vectors, Op.arity]) h, Outcome.ok_bind, vld1Lane_real rfl hacc (p := a.p2) (by simp [vectors, Op.arity]) h, Outcome.ok_bind]
  rw [vst1_real (fn := (⟨.multiplyConstantAdd, false, false⟩ : Fn)) rfl hacc h _ (by
    intro i hi
    obtain rfl : i = 0 := by omega
    simp only [vadd, vmul, vmla, dup, if_true]
    rw [read_real0 rfl hs (p := a.p1) (by simp [vectors, Op.arity]) (by omega), read_real0 rfl hs (p := a.p2) (by simp [vectors, Op.arity]) (by omega)]
    simp only [realResult, formula, operand, Op.arity, Nat.add_zero]
    simp; try ring), Outcome.ok_bind, Outcome.pure_eq]
  simp only [Nat.add_assoc]

theorem vectorMultiplyConstantAdd_ok (debug : Bool) (g : Garbage K) (a : Args K) (m : Memory K) (hacc : Accessible (⟨.multiplyConstantAdd, false, false⟩ : Fn) a m) (hs : Separate (⟨.multiplyConstantAdd, false, false⟩ : Fn) a)
    (hc : debug = true → ∀ p ∈ vectors (⟨.multiplyConstantAdd, false, false⟩ : Fn) a, check 1 p a.alignment = true) :
    vectorMultiplyConstantAdd debug g a.c.re a.p1 a.p2 a.y a.n a.alignment m = .ok (.noError, written (⟨.multiplyConstantAdd, false, false⟩ : Fn) a m a.n) := by
  unfold vectorMultiplyConstantAdd
  rw [checked_ok _ _ _ _ _ _ fun hd p hp => hc hd p (by revert hp; simp [vectors, Op.arity]; try tauto)]
  conv_lhs => rw [← written_zero (⟨.multiplyConstantAdd, false, false⟩ : Fn) a m]
  exact run4_at _ _ _ (fun off => ⟨a.p1 + off, a.p2 + off, 0, a.y + off⟩) (written (⟨.multiplyConstantAdd, false, false⟩ : Fn) a m) a.n (vectorMultiplyConstantAdd4_ok a m hacc hs) (vectorMultiplyConstantAdd2_ok a m hacc hs)
    (vectorMultiplyConstantAdd1_ok g a m hacc hs)

theorem cVectorMultiplyConstantAdd4_ok (a : Args K) (m : Memory K) (hacc : Accessible (⟨.multiplyConstantAdd, false, true⟩ : Fn) a m) (hs : Separate (⟨.multiplyConstantAdd, false, true⟩ : Fn) a) (off : Nat)
    (h : off + 4 ≤ a.n) : cVectorMultiplyConstantAdd4 a.c.re a.c.im ⟨a.p1 + 2 * off, a.p2 + 2 * off, 0, a.y + 2 * off⟩ (written (⟨.multiplyConstantAdd, false, true⟩ : Fn) a m off) =
      .ok (⟨a.p1 + 2 * (off + 4), a.p2 + 2 * (off + 4), 0, a.y + 2 * (off + 4)⟩, written (⟨.multiplyConstantAdd, false, true⟩ : Fn) a m (off + 4)) := by
  unfold cVectorMultiplyConstantAdd4
  dsimp only
  rw [vld2_complex rfl hacc (p := a.p1) (by simp [vectors, Op.arity]) h, Outcome.ok_bind, vld2_complex rfl hacc (p := a.p2) (by simp [vectors, Op.arity]) h, Outcome.ok_bind]
  rw [vst2_complex (w := 4) (fn := (⟨.multiplyConstantAdd, false, true⟩ : Fn)) rfl hacc h _ (by
    intro j hj
    simp only [vmul, vmla, vmls, dup]
    rw [read_re rfl hs (p := a.p1) (by simp [vectors, Op.arity]) (by omega), read_im rfl hs (p := a.p1) (by simp [vectors, Op.arity]) (by omega), read_re rfl hs (p := a.p2) (by simp [vectors, Op.arity]) (by omega), read_im rfl hs (p := a.p2) (by simp [vectors, Op.arity]) (by omega)]
    simp only [complexResult, formula, operand, Op.arity, Nat.add_zero, Cx.add_re, Cx.add_im, Cx.mul_re, Cx.mul_im]
    constructor <;> (simp; try ring)), Outcome.ok_bind, Outcome.pure_eq]
  simp only [Nat.mul_add, ← Nat.add_assoc]

theorem cVectorMultiplyConstantAdd2_ok (a : Args K) (m : Memory K) (hacc : Accessible (⟨.multiplyConstantAdd, false, true⟩ : Fn) a m) (hs : Separate (⟨.multiplyConstantAdd, false, true⟩ : Fn) a) (off : Nat)
    (h : off + 2 ≤ a.n) : cVectorMultiplyConstantAdd2 a.c.re a.c.im ⟨a.p1 + 2 * off, a.p2 + 2 * off, 0, a.y + 2 * off⟩ (written (⟨.multiplyConstantAdd, false, true⟩ : Fn) a m off) =
      .ok (⟨a.p1 + 2 * (off + 2), a.p2 + 2 * (off + 2), 0, a.y + 2 * (off + 2)⟩, written (⟨.multiplyConstantAdd, false, true⟩ : Fn) a m (off + 2)) := by
  unfold cVectorMultiplyConstantAdd2
  dsimp only
  rw [vld2_complex rfl hacc (p := a.p1) (by simp [vectors, Op.arity]) h, Outcome.ok_bind, vld2_complex rfl hacc (p := a.p2) (by simp [vectors, Op.arity]) h, Outcome.ok_bind]
  rw [vst2_complex (w := 2) (fn := (⟨.multiplyConstantAdd, false, true⟩ : Fn)) rfl hacc h _ (by
    intro j hj
    simp only [vmul, vmla, vmls, dup]
    rw [read_re rfl hs (p := a.p1) (by simp [vectors, Op.arity]) (by omega), read_im rfl hs (p := a.p1) (by simp [vectors, Op.arity]) (by omega), read_re rfl hs (p := a.p2) (by simp [vectors, Op.arity]) (by omega), read_im rfl hs (p := a.p2) (by simp [vectors, Op.arity]) (by omega)]
    simp only [complexResult, formula, operand, Op.arity, Nat.add_zero, Cx.add_re, Cx.add_im, Cx.mul_re, Cx.mul_im]
    constructor <;> (simp; try ring)), Outcome.ok_bind, Outcome.pure_eq]
  simp only [Nat.mul_add, ← Nat.add_assoc]

theorem cVectorMultiplyConstantAdd1_ok (g : Garbage K) (a : Args K) (m : Memory K) (hacc : Accessible (⟨.multiplyConstantAdd, false, true⟩ : Fn) a m) (hs : Separate (⟨.multiplyConstantAdd, false, true⟩ : Fn) a) (off : Nat)
    (h : off + 1 ≤ a.n) : cVectorMultiplyConstantAdd1 g a.c.re a.c.im ⟨a.p1 + 2 * off, a.p2 + 2 * off, 0, a.y + 2 * off⟩ (written (⟨.multiplyConstantAdd, false, true⟩ : Fn) a m off) =
      .ok (⟨a.p1 + 2 * (off + 1), a.p2 + 2 * (off + 1), 0, a.y + 2 * (off + 1)⟩, written (⟨.multiplyConstantAdd, false, true⟩ : Fn) a m (off + 1)) := by
  unfold cVectorMultiplyConstantAdd1
  dsimp only
  rw [vld2Lane_complex rfl hacc (p := a.p1) (by simp [vectors, Op.arity]) h, Outcome.ok_bind, vld2Lane_complex rfl hacc (p := a.p2) (by simp [vectors, Op.arity]) h, Outcome.ok_bind]
  rw [vst2_complex (w := 1) (fn := (⟨.multiplyConstantAdd, false, true⟩ : Fn)) rfl hacc h _ (by
    intro j hj
    obtain rfl : j = 0 := by omega
    simp only [vmul, vmla, vmls, dup, if_true]
    rw [read_re0 rfl hs (p := a.p1) (by simp [vectors, Op.arity]) (by omega), read_im0 rfl hs (p := a.p1) (by simp [vectors, Op.arity]) (by omega), read_re0 rfl hs (p := a.p2) (by simp [vectors, Op.arity]) (by omega), read_im0 rfl hs (p := a.p2) (by simp [vectors, Op.arity]) (by omega)]
    simp only [complexResult, formula, operand, Op.arity, Nat.add_zero, Cx.add_re, Cx.add_im, Cx.mul_re, Cx.mul_im]
    constructor <;> (simp; try ring)), Outcome.ok_bind, Outcome.pure_eq]
  simp only [Nat.mul_add, ← Nat.add_assoc]

theorem cVectorMultiplyConstantAdd_ok (debug : Bool) (g : Garbage K) (a : Args K) (m : Memory K) (hacc : Accessible (⟨.multiplyConstantAdd, false, true⟩ : Fn) a m) (hs : Separate (⟨.multiplyConstantAdd, false, true⟩ : Fn) a)
    (hc : debug = true → ∀ p ∈ vectors (⟨.multiplyConstantAdd, false, true⟩ : Fn) a, check 2 p a.alignment = true) :
    cVectorMultiplyConstantAdd debug g a.c.re a.c.im a.p1 a.p2 a.y a.n a.alignment m = .ok (.noError, written (⟨.multiplyConstantAdd, false, true⟩ : Fn) a m a.n) := by
  unfold cVectorMultiplyConstantAdd
  rw [checked_ok _ _ _ _ _ _ fun hd p hp => hc hd p (by revert hp; simp [vectors, Op.arity]; try tauto)]
  conv_lhs => rw [← written_zero (⟨.multiplyConstantAdd, false, true⟩ : Fn) a m]
  exact run4_at _ _ _ (fun off => ⟨a.p1 + 2 * off, a.p2 + 2 * off, 0, a.y + 2 * off⟩) (written (⟨.multiplyConstantAdd, false, true⟩ : Fn) a m) a.n (cVectorMultiplyConstantAdd4_ok a m hacc hs) (cVectorMultiplyConstantAdd2_ok a m hacc hs)
    (cVectorMultiplyConstantAdd1_ok g a m hacc hs)

theorem vectorMultiplyConstantAddInplace4_ok (a : Args K) (m : Memory K) (hacc : Accessible (⟨.multiplyConstantAdd, true, false⟩ : Fn) a m) (hs : Separate (⟨.multiplyConstantAdd, true, false⟩ : Fn) a) (off : Nat)
    (h : off + 4 ≤ a.n) : vectorMultiplyConstantAddInplace4 a.c.re ⟨a.p1 + off, 0, 0, a.y + off⟩ (written (⟨.multiplyConstantAdd, true, false⟩ : Fn) a m off) =
      .ok (⟨a.p1 + (off + 4), 0, 0, a.y + (off + 4)⟩, written (⟨.multiplyConstantAdd, true, false⟩ : Fn) a m (off + 4)) := by
  unfold vectorMultiplyConstantAddInplace4
  dsimp only
  rw [vld1_real rfl hacc (p := a.p1) (by simp [vectors, Op.arity]) h, Outcome.ok_bind, vld1_real rfl hacc (p := a.y) (by simp [vectors, Op.arity]) h, Outcome.ok_bind]
  rw [vst1_real (fn := (⟨.multiplyConstantAdd, true, false⟩ : Fn)) rfl hacc h _ (by
    intro i hi
    simp only [vadd, vmul, vmla, dup]
    rw [read_real rfl hs (p := a.p1) (by simp [vectors, Op.arity]) (by omega), read_real rfl hs (p := a.y) (by simp [vectors, Op.arity]) (by omega)]
    simp only [realResult, formula, operand, Op.arity, Nat.add_zero]
    simp; try ring), Outcome.ok_bind, Outcome.pure_eq]
  simp only [Nat.add_assoc]

theorem vectorMultiplyConstantAddInplace2_ok (a : Args K) (m : Memory K) (hacc : Accessible (⟨.multiplyConstantAdd, true, false⟩ : Fn) a m) (hs : Separate (⟨.multiplyConstantAdd, true, false⟩ : Fn) a) (off : Nat)
    (h : off + 2 ≤ a.n) : vectorMultiplyConstantAddInplace2 a.c.re ⟨a.p1 + off, 0, 0, a.y + off⟩ (written (⟨.multiplyConstantAdd, true, false⟩ : Fn) a m off) =
      .ok (⟨a.p1 + (off + 2), 0, 0, a.y + (off + 2)⟩, written (⟨.multiplyConstantAdd, true, false⟩ : Fn) a m (off + 2)) := by
  unfold vectorMultiplyConstantAddInplace2
  dsimp only
  rw [vld1_real rfl hacc (p := a.p1) (by simp [vectors, Op.arity]) h, Outcome.ok_bind, vld1_real rfl hacc (p := a.y) (by simp [vectors, Op.arity]) h, Outcome.ok_bind]
  rw [vst1_real (fn := (⟨.multiplyConstantAdd, true, false⟩ : Fn)) rfl hacc h _ (by
    intro i hi
    simp only [vadd, vmul, vmla, dup]
    rw [read_real rfl hs (p := a.p1) (by simp [vectors, Op.arity]) (by omega), read_real rfl hs (p := a.y) (by simp [vectors, Op.arity]) (by omega)]
    simp only [realResult, formula, operand, Op.arity, Nat.add_zero]
    simp; try ring), Outcome.ok_bind, Outcome.pure_eq]
  simp only [Nat.add_assoc]

theorem vectorMultiplyConstantAddInplace1_ok (g : Garbage K) (a : Args K) (m : Memory K) (hacc : Accessible (⟨.multiplyConstantAdd, true, false⟩ : Fn) a m) (hs : Separate (⟨.multiplyConstantAdd, true, false⟩ : Fn) a) (off : Nat)
    (h : off + 1 ≤ a.n) : vectorMultiplyConstantAddInplace1 g a.c.re ⟨a.p1 + off, 0, 0, a.y + off⟩ (written (⟨.multiplyConstantAdd, true, false⟩ : Fn) a m off) =
      .ok (⟨a.p1 + (off + 1), 0, 0, a.y + (off + 1)⟩, written (⟨.multiplyConstantAdd, true, false⟩ : Fn) a m (off + 1)) := by
  unfold vectorMultiplyConstantAddInplace1
  dsimp only
  rw [vld1Lane_real rfl hacc (p := a.p1) (by simp [vectors, Op.arity]) h, Outcome.ok_bind, vld1Lane_real rfl hacc (p := a.y) (by simp [vectors, Op.arity]) h, Outcome.ok_bind]
  rw [vst1_real (fn := (⟨.multiplyConstantAdd, true, false⟩ : Fn)) rfl hacc h _ (by
    intro i hi
    obtain rfl : i = 0 := by omega
    simp only [vadd, vmul, vmla, dup, if_true]
    rw [read_real0 rfl hs (p := a.p1) (by simp [vectors, Op.arity]) (by omega), read_real0 rfl hs (p := a.y) (by simp [vectors, Op.arity]) (by omega)]
    simp only [realResult, formula, operand, Op.arity, Nat.add_zero]
    simp; try ring), Outcome.ok_bind, Outcome.pure_eq]
  simp only [Nat.add_assoc]

theorem vectorMultiplyConstantAddInplace_ok (debug : Bool) (g : Garbage K) (a : Args K) (m : Memory K) (hacc : Accessible (⟨.multiplyConstantAdd, true, false⟩ : Fn) a m) (hs : Separate (⟨.multiplyConstantAdd, true, false⟩ : Fn) a)
    (hc : debug = true → ∀ p ∈ vectors (⟨.multiplyConstantAdd, true, false⟩ : Fn) a, check 1 p a.alignment = true) :
    vectorMultiplyConstantAddInplace debug g a.c.re a.p1 a.y a.n a.alignment m = .ok (.noError, written (⟨.multiplyConstantAdd, true, false⟩ : Fn) a m a.n) := by
  unfold vectorMultiplyConstantAddInplace
  rw [checked_ok _ _ _ _ _ _ fun hd p hp => hc hd p (by revert hp; simp [vectors, Op.arity]; try tauto)]
  conv_lhs => rw [← written_zero (⟨.multiplyConstantAdd, true, false⟩ : Fn) a m]
  exact run4_at _ _ _ (fun off => ⟨a.p1 + off, 0, 0, a.y + off⟩) (written (⟨.multiplyConstantAdd, true, false⟩ : Fn) a m) a.n (vectorMultiplyConstantAddInplace4_ok a m hacc hs) (vectorMultiplyConstantAddInplace2_ok a m hacc hs)
    (vectorMultiplyConstantAddInplace1_ok g a m hacc hs)

theorem cVectorMultiplyConstantAddInplace4_ok (a : Args K) (m : Memory K) (hacc : Accessible (⟨.multiplyConstantAdd, true, true⟩ : Fn) a m) (hs : Separate (⟨.multiplyConstantAdd, true, true⟩ : Fn) a) (off : Nat)
    (h : off + 4 ≤ a.n) : cVectorMultiplyConstantAddInplace4 a.c.re a.c.im ⟨a.p1 + 2 * off, 0, 0, a.y + 2 * off⟩ (written (⟨.multiplyConstantAdd, true, true⟩ : Fn) a m off) =
      .ok (⟨a.p1 + 2 * (off + 4), 0, 0, a.y + 2 * (off + 4)⟩, written (⟨.multiplyConstantAdd, true, true⟩ : Fn) a m (off + 4)) := by
  unfold cVectorMultiplyConstantAddInplace4
  dsimp only
  rw [vld2_complex rfl hacc (p := a.p1) (by simp [vectors, Op.arity]) h, Outcome.ok_bind, vld2_complex rfl hacc (p := a.y) (by simp [vectors, Op.arity]) h, Outcome.ok_bind]
  rw [vst2_complex (w := 4) (fn := (⟨.multiplyConstantAdd, true, true⟩ : Fn)) rfl hacc h _ (by
    intro j hj
    simp only [vmul, vmla, vmls, dup]
    rw [read_re rfl hs (p := a.p1) (by simp [vectors, Op.arity]) (by omega), read_im rfl hs (p := a.p1) (by simp [vectors, Op.arity]) (by omega), read_re rfl hs (p := a.y) (by simp [vectors, Op.arity]) (by omega), read_im rfl hs (p := a.y) (by simp [vectors, Op.arity]) (by omega)]
    simp only [complexResult, formula, operand, Op.arity, Nat.add_zero, Cx.add_re, Cx.add_im, Cx.mul_re, Cx.mul_im]
    constructor <;> (simp; try ring)), Outcome.ok_bind, Outcome.pure_eq]
  simp only [Nat.mul_add, ← Nat.add_assoc]

theorem cVectorMultiplyConstantAddInplace2_ok (a : Args K) (m : Memory K) (hacc : Accessible (⟨.multiplyConstantAdd, true, true⟩ : Fn) a m) (hs : Separate (⟨.multiplyConstantAdd, true, true⟩ : Fn) a) (off : Nat)
    (h : off + 2 ≤ a.n) : cVectorMultiplyConstantAddInplace2 a.c.re a.c.im ⟨a.p1 + 2 * off, 0, 0, a.y + 2 * off⟩ (written (⟨.multiplyConstantAdd, true, true⟩ : Fn) a m off) =
      .ok (⟨a.p1 + 2 * (off + 2), 0, 0, a.y + 2 * (off + 2)⟩, written (⟨.multiplyConstantAdd, true, true⟩ : Fn) a m (off + 2)) := by
  unfold cVectorMultiplyConstantAddInplace2
  dsimp only
  rw [vld2_complex rfl hacc (p := a.p1) (by simp [vectors, Op.arity]) h, Outcome.ok_bind, vld2_complex rfl hacc (p := a.y) (by simp [vectors, Op.arity]) h, Outcome.ok_bind]
  rw [vst2_complex (w := 2) (fn := (⟨.multiplyConstantAdd, true, true⟩ : Fn)) rfl hacc h _ (by
    intro j hj
    simp only [vmul, vmla, vmls, dup]
    rw [read_re rfl hs (p := a.p1) (by simp [vectors, Op.arity]) (by omega), read_im rfl hs (p := a.p1) (by simp [vectors, Op.arity]) (by omega), read_re rfl hs (p := a.y) (by simp [vectors, Op.arity]) (by omega), read_im rfl hs (p := a.y) (by simp [vectors, Op.arity]) (by omega)]
    simp only [complexResult, formula, operand, Op.arity, Nat.add_zero, Cx.add_re, Cx.add_im, Cx.mul_re, Cx.mul_im]
    constructor <;> (simp; try ring)), Outcome.ok_bind, Outcome.pure_eq]
  simp only [Nat.mul_add, ← Nat.add_assoc]

theorem cVectorMultiplyConstantAddInplace1_ok (g : Garbage K) (a : Args K) (m : Memory K) (hacc : Accessible (⟨.multiplyConstantAdd, true, true⟩ : Fn) a m) (hs : Separate (⟨.multiplyConstantAdd, true, true⟩ : Fn) a) (off : Nat)
    (h : off + 1 ≤ a.n) : cVectorMultiplyConstantAddInplace1 g a.c.re a.c.im ⟨a.p1 + 2 * off, 0, 0, a.y + 2 * off⟩ (written (⟨.multiplyConstantAdd, true, true⟩ : Fn) a m off) =
      .ok (⟨a.p1 + 2 * (off + 1), 0, 0, a.y + 2 * (off + 1)⟩, written (⟨.multiplyConstantAdd, true, true⟩ : Fn) a m (off + 1)) := by
  unfold cVectorMultiplyConstantAddInplace1
  dsimp only
  rw [vld2Lane_complex rfl hacc (p := a.p1) (by simp [vectors, Op.arity]) h, Outcome.ok_bind, vld2Lane_complex rfl hacc (p := a.y) (by simp [vectors, Op.arity]) h, Outcome.ok_bind]
  rw [vst2_complex (w := 1) (fn := (⟨.multiplyConstantAdd, true, true⟩ : Fn)) rfl hacc h _ (by
    intro j hj
    obtain rfl : j = 0 := by omega
    simp only [vmul, vmla, vmls, dup, if_true]
    rw [read_re0 rfl hs (p := a.p1) (by simp [vectors, Op.arity]) (by omega), read_im0 rfl hs (p := a.p1) (by simp [vectors, Op.arity]) (by omega), read_re0 rfl hs (p := a.y) (by simp [vectors, Op.arity]) (by omega), read_im0 rfl hs (p := a.y) (by simp [vectors, Op.arity]) (by omega)]
    simp only [complexResult, formula, operand, Op.arity, Nat.add_zero, Cx.add_re, Cx.add_im, Cx.mul_re, Cx.mul_im]
    constructor <;> (simp; try ring)), Outcome.ok_bind, Outcome.pure_eq]
  simp only [Nat.mul_add, ← Nat.add_assoc]

theorem cVectorMultiplyConstantAddInplace_ok (debug : Bool) (g : Garbage K) (a : Args K) (m : Memory K) (hacc : Accessible (⟨.multiplyConstantAdd, true, true⟩ : Fn) a m) (hs : Separate (⟨.multiplyConstantAdd, true, true⟩ : Fn) a)
    (hc : debug = true → ∀ p ∈ vectors (⟨.multiplyConstantAdd, true, true⟩ : Fn) a, check 2 p a.alignment = true) :
    cVectorMultiplyConstantAddInplace debug g a.c.re a.c.im a.p1 a.y a.n a.alignment m = .ok (.noError, written (⟨.multiplyConstantAdd, true, true⟩ : Fn) a m a.n) := by
  unfold cVectorMultiplyConstantAddInplace
  rw [checked_ok _ _ _ _ _ _ fun hd p hp => hc hd p (by revert hp; simp [vectors, Op.arity]; try tauto)]
  conv_lhs => rw [← written_zero (⟨.multiplyConstantAdd, true, true⟩ : Fn) a m]
  exact run4_at _ _ _ (fun off => ⟨a.p1 + 2 * off, 0, 0, a.y + 2 * off⟩) (written (⟨.multiplyConstantAdd, true, true⟩ : Fn) a m) a.n (cVectorMultiplyConstantAddInplace4_ok a m hacc hs) (cVectorMultiplyConstantAddInplace2_ok a m hacc hs)
    (cVectorMultiplyConstantAddInplace1_ok g a m hacc hs)

end Visr.Neon
