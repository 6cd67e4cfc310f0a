import Verif.Simd.Lemmas

/-!
# Lemmas about the vectorised functions for complex numbers
-/

namespace Visr.Simd
open Visr

variable {K : Type} [CommRing K]

theorem complexProduct_lane (a b : Reg K) (i : Nat) (hi : i < 8) :
    complexProduct a b i =
      if i % 2 = 0 then b i * a i - b (i + 1) * a (i + 1) else b i * a (i - 1) + b (i - 1) * a i := by
  interval_cases i <;> simp [complexProduct, permute, mul, addsub]

theorem constProduct_lane (re im : K) (ab : Reg K) (i : Nat) (hi : i < 8) :
    constProduct re im ab i =
      if i % 2 = 0 then re * ab i - im * ab (i + 1) else re * ab i + im * ab (i - 1) := by
  interval_cases i <;> simp [constProduct, permute, mul, addsub, broadcast]

theorem complexProductScalar_lane (re im : K) (m : Mem K) (p i : Nat) (hi : i < 2) :
    complexProductScalar re im m p i =
      if i % 2 = 0 then re * m (p + i) - im * m (p + i + 1) else re * m (p + i) + im * m (p + (i - 1)) := by
  interval_cases i <;> simp [complexProductScalar, permute, mul, addsub, broadcast, loadl]

theorem reAt_even (m : Mem K) (p off i : Nat) (hi : i % 2 = 0) : reAt m p ((2 * off + i) / 2) = m (p + 2 * off + i) := by
  unfold reAt; congr 1; omega

theorem imAt_even (m : Mem K) (p off i : Nat) (hi : i % 2 = 0) :
    imAt m p ((2 * off + i) / 2) = m (p + 2 * off + (i + 1)) := by
  unfold imAt; congr 1; omega

theorem reAt_odd (m : Mem K) (p off i : Nat) (hi : ¬ i % 2 = 0) :
    reAt m p ((2 * off + i) / 2) = m (p + 2 * off + (i - 1)) := by
  unfold reAt; congr 1; omega

theorem imAt_odd (m : Mem K) (p off i : Nat) (hi : ¬ i % 2 = 0) :
    imAt m p ((2 * off + i) / 2) = m (p + 2 * off + i) := by
  unfold imAt; congr 1; omega

theorem cell_even (off i : Nat) (hi : i % 2 = 0) (re im : K) : cell (2 * off + i) re im = re := by
  unfold cell; rw [if_pos (by omega)]

theorem cell_odd (off i : Nat) (hi : ¬ i % 2 = 0) (re im : K) : cell (2 * off + i) re im = im := by
  unfold cell; rw [if_neg (by omega)]

/-! ### Multiplication -/

theorem cMultiply_lane (a : Args K) (m : Mem K) (hs : Separate .multiplyComplex a) (off w : Nat) (hoff : off + w ≤ a.n)
    (i : Nat) (hi : i < 2 * w) (A B : Reg K)
    (hA : ∀ j < 2 * w, A j = written .multiplyComplex a m off (a.p1 + 2 * off + j))
    (hB : ∀ j < 2 * w, B j = written .multiplyComplex a m off (a.p2 + 2 * off + j)) :
    (if i % 2 = 0 then B i * A i - B (i + 1) * A (i + 1) else B i * A (i - 1) + B (i - 1) * A i) =
      value .multiplyComplex a m (Fn.size .multiplyComplex * off + i) := by
  have hsz : Fn.size .multiplyComplex = 2 := rfl
  have r1 : ∀ j < 2 * w, A j = m (a.p1 + 2 * off + j) := fun j hj => by
    rw [hA j hj]
    exact read_written (fn := .multiplyComplex) (a := a) (m := m) (off := off) (i := j) hs.1 (by rw [hsz]; omega)
  have r2 : ∀ j < 2 * w, B j = m (a.p2 + 2 * off + j) := fun j hj => by
    rw [hB j hj]
    exact read_written (fn := .multiplyComplex) (a := a) (m := m) (off := off) (i := j) (hs.2 rfl) (by rw [hsz]; omega)
  rw [hsz]
  simp only [value]
  by_cases hi2 : i % 2 = 0
  · rw [if_pos hi2, cell_even off i hi2, r1 i hi, r2 i hi, r1 (i + 1) (by omega), r2 (i + 1) (by omega),
      reAt_even _ _ _ _ hi2, reAt_even _ _ _ _ hi2, imAt_even _ _ _ _ hi2, imAt_even _ _ _ _ hi2]
    ring
  · rw [if_neg hi2, cell_odd off i hi2, r1 i hi, r2 i hi, r1 (i - 1) (by omega), r2 (i - 1) (by omega),
      reAt_odd _ _ _ _ hi2, reAt_odd _ _ _ _ hi2, imAt_odd _ _ _ _ hi2, imAt_odd _ _ _ _ hi2]
    ring

theorem cMultiplyBody4_ok (a : Args K) (m : Mem K) (hs : Separate .multiplyComplex a) (aligned : Bool)
    (ha : aligned = true → AllDvd 8 a) (off : Nat) (hd : 4 ∣ off) (hoff : off + 4 ≤ a.n) :
    cMultiplyBody4 aligned (at3 2 a off) (written .multiplyComplex a m off) =
      .ok (at3 2 a (off + 4), written .multiplyComplex a m (off + 4)) := by
  unfold cMultiplyBody4
  have d : ∀ p, (aligned = true → 8 ∣ p) → aligned = true → 8 ∣ p + 2 * off := fun p hp h =>
    dvd_at (s := 2) (w := 4) (hp h) hd
  have e1 : (at3 2 a off).p1 = a.p1 + 2 * off := rfl
  have e2 : (at3 2 a off).p2 = a.p2 + 2 * off := rfl
  have e3 : (at3 2 a off).y = a.y + 2 * off := rfl
  rw [e1, e2, e3, loadIf_ok aligned 8 _ _ (d _ fun h => (ha h).1), Outcome.ok_bind,
    loadIf_ok aligned 8 _ _ (d _ fun h => (ha h).2.1), Outcome.ok_bind,
    storeIf_ok aligned 8 _ _ _ (d _ fun h => (ha h).2.2), Outcome.ok_bind]
  have := storeu_written .multiplyComplex a m off 4
    (complexProduct (loadu (written .multiplyComplex a m off) (a.p1 + 2 * off))
      (loadu (written .multiplyComplex a m off) (a.p2 + 2 * off))) (by
      intro i hi
      have hi : i < 8 := by simpa [Fn.size] using hi
      rw [complexProduct_lane _ _ i hi]
      exact cMultiply_lane a m hs off 4 hoff i (by omega) _ _ (fun _ _ => rfl) (fun _ _ => rfl))
  rw [show Fn.size .multiplyComplex = 2 from rfl] at this
  rw [this, Outcome.pure_eq, ← at3_advance 2 a off 4]

theorem cMultiplyBody2_ok (a : Args K) (m : Mem K) (hs : Separate .multiplyComplex a) (ha : 4 ∣ a.y) (off : Nat)
    (hd : 2 ∣ off) (hoff : off + 2 ≤ a.n) :
    cMultiplyBody2 (at3 2 a off) (written .multiplyComplex a m off) =
      .ok (at3 2 a (off + 2), written .multiplyComplex a m (off + 2)) := by
  unfold cMultiplyBody2
  have e1 : (at3 2 a off).p1 = a.p1 + 2 * off := rfl
  have e2 : (at3 2 a off).p2 = a.p2 + 2 * off := rfl
  have e3 : (at3 2 a off).y = a.y + 2 * off := rfl
  rw [e1, e2, e3, store_ok 4 _ _ _ (dvd_at (s := 2) (w := 2) ha hd), Outcome.ok_bind]
  have := storeu_written .multiplyComplex a m off 2
    (complexProduct (loadu (written .multiplyComplex a m off) (a.p1 + 2 * off))
      (loadu (written .multiplyComplex a m off) (a.p2 + 2 * off))) (by
      intro i hi
      have hi : i < 4 := by simpa [Fn.size] using hi
      rw [complexProduct_lane _ _ i (by omega)]
      exact cMultiply_lane a m hs off 2 hoff i (by omega) _ _ (fun _ _ => rfl) (fun _ _ => rfl))
  rw [show Fn.size .multiplyComplex = 2 from rfl] at this
  rw [this, Outcome.pure_eq, ← at3_advance 2 a off 2]

theorem cMultiplyScalar_ok (a : Args K) (m : Mem K) (hs : Separate .multiplyComplex a) (off : Nat) (hoff : off + 1 ≤ a.n) :
    cMultiplyScalar (at3 2 a off) (written .multiplyComplex a m off) =
      .ok (at3 2 a (off + 1), written .multiplyComplex a m (off + 1)) := by
  unfold cMultiplyScalar
  have e1 : (at3 2 a off).p1 = a.p1 + 2 * off := rfl
  have e2 : (at3 2 a off).p2 = a.p2 + 2 * off := rfl
  have e3 : (at3 2 a off).y = a.y + 2 * off := rfl
  have := storeu_written .multiplyComplex a m off 1
    (complexProductScalar (written .multiplyComplex a m off (a.p1 + 2 * off))
      (written .multiplyComplex a m off (a.p1 + 2 * off + 1)) (written .multiplyComplex a m off) (a.p2 + 2 * off)) (by
      intro i hi
      have hi : i < 2 := by simpa [Fn.size] using hi
      rw [complexProductScalar_lane _ _ _ _ i hi]
      have h := cMultiply_lane a m hs off 1 hoff i (by omega)
        (fun j => written .multiplyComplex a m off (a.p1 + 2 * off + j))
        (fun j => written .multiplyComplex a m off (a.p2 + 2 * off + j)) (fun _ _ => rfl) (fun _ _ => rfl)
      rw [← h]
      interval_cases i
      · simp only [Nat.zero_mod, if_true, Nat.add_zero]; ring
      · simp only [Nat.one_mod, one_ne_zero, if_false, Nat.sub_self, Nat.add_zero]; ring)
  rw [show Fn.size .multiplyComplex = 2 from rfl] at this
  rw [e1, e2, e3, ← at3_advance 2 a off 1]
  exact congrArg (fun x => Outcome.ok (_, x)) this

/-! ### Multiplication and addition -/

theorem cMultiplyAdd_lane (a : Args K) (m : Mem K) (hs : Separate .multiplyAddComplex a) (off w : Nat)
    (hoff : off + w ≤ a.n) (i : Nat) (hi : i < 2 * w) (A B Y : Reg K)
    (hA : ∀ j < 2 * w, A j = written .multiplyAddComplex a m off (a.p1 + 2 * off + j))
    (hB : ∀ j < 2 * w, B j = written .multiplyAddComplex a m off (a.p2 + 2 * off + j))
    (hY : ∀ j < 2 * w, Y j = written .multiplyAddComplex a m off (a.y + 2 * off + j)) :
    (if i % 2 = 0 then B i * A i - B (i + 1) * A (i + 1) else B i * A (i - 1) + B (i - 1) * A i) + Y i =
      value .multiplyAddComplex a m (Fn.size .multiplyAddComplex * off + i) := by
  have hsz : Fn.size .multiplyAddComplex = 2 := rfl
  have r1 : ∀ j < 2 * w, A j = m (a.p1 + 2 * off + j) := fun j hj => by
    rw [hA j hj]
    exact read_written (fn := .multiplyAddComplex) (a := a) (m := m) (off := off) (i := j) hs.1 (by rw [hsz]; omega)
  have r2 : ∀ j < 2 * w, B j = m (a.p2 + 2 * off + j) := fun j hj => by
    rw [hB j hj]
    exact read_written (fn := .multiplyAddComplex) (a := a) (m := m) (off := off) (i := j) (hs.2 rfl)
      (by rw [hsz]; omega)
  have r3 : ∀ j < 2 * w, Y j = m (a.y + 2 * off + j) := fun j hj => by
    rw [hY j hj]
    exact read_written_y (fn := .multiplyAddComplex)
  rw [hsz]
  simp only [value]
  by_cases hi2 : i % 2 = 0
  · rw [if_pos hi2, cell_even off i hi2, r1 i hi, r2 i hi, r1 (i + 1) (by omega), r2 (i + 1) (by omega), r3 i hi,
      reAt_even _ _ _ _ hi2, reAt_even _ _ _ _ hi2, reAt_even _ _ _ _ hi2, imAt_even _ _ _ _ hi2,
      imAt_even _ _ _ _ hi2]
    ring
  · rw [if_neg hi2, cell_odd off i hi2, r1 i hi, r2 i hi, r1 (i - 1) (by omega), r2 (i - 1) (by omega), r3 i hi,
      reAt_odd _ _ _ _ hi2, reAt_odd _ _ _ _ hi2, imAt_odd _ _ _ _ hi2, imAt_odd _ _ _ _ hi2, imAt_odd _ _ _ _ hi2]
    ring

theorem cMultiplyAddBody4_ok (a : Args K) (m : Mem K) (hs : Separate .multiplyAddComplex a) (aligned : Bool)
    (ha : aligned = true → AllDvd 8 a) (off : Nat) (hd : 4 ∣ off) (hoff : off + 4 ≤ a.n) :
    cMultiplyAddBody4 aligned (at3 2 a off) (written .multiplyAddComplex a m off) =
      .ok (at3 2 a (off + 4), written .multiplyAddComplex a m (off + 4)) := by
  unfold cMultiplyAddBody4
  have d : ∀ p, (aligned = true → 8 ∣ p) → aligned = true → 8 ∣ p + 2 * off := fun p hp h =>
    dvd_at (s := 2) (w := 4) (hp h) hd
  have e1 : (at3 2 a off).p1 = a.p1 + 2 * off := rfl
  have e2 : (at3 2 a off).p2 = a.p2 + 2 * off := rfl
  have e3 : (at3 2 a off).y = a.y + 2 * off := rfl
  rw [e1, e2, e3, loadIf_ok aligned 8 _ _ (d _ fun h => (ha h).1), Outcome.ok_bind,
    loadIf_ok aligned 8 _ _ (d _ fun h => (ha h).2.1), Outcome.ok_bind,
    loadIf_ok aligned 8 _ _ (d _ fun h => (ha h).2.2), Outcome.ok_bind,
    storeIf_ok aligned 8 _ _ _ (d _ fun h => (ha h).2.2), Outcome.ok_bind]
  have := storeu_written .multiplyAddComplex a m off 4
    (add (complexProduct (loadu (written .multiplyAddComplex a m off) (a.p1 + 2 * off))
      (loadu (written .multiplyAddComplex a m off) (a.p2 + 2 * off)))
      (loadu (written .multiplyAddComplex a m off) (a.y + 2 * off))) (by
      intro i hi
      have hi : i < 8 := by simpa [Fn.size] using hi
      unfold add
      rw [complexProduct_lane _ _ i hi]
      exact cMultiplyAdd_lane a m hs off 4 hoff i (by omega) _ _ _ (fun _ _ => rfl) (fun _ _ => rfl) (fun _ _ => rfl))
  rw [show Fn.size .multiplyAddComplex = 2 from rfl] at this
  rw [this, Outcome.pure_eq, ← at3_advance 2 a off 4]

theorem cMultiplyAddBody2_ok (a : Args K) (m : Mem K) (hs : Separate .multiplyAddComplex a) (ha : AllDvd 4 a) (off : Nat)
    (hd : 2 ∣ off) (hoff : off + 2 ≤ a.n) :
    cMultiplyAddBody2 (at3 2 a off) (written .multiplyAddComplex a m off) =
      .ok (at3 2 a (off + 2), written .multiplyAddComplex a m (off + 2)) := by
  unfold cMultiplyAddBody2
  have e1 : (at3 2 a off).p1 = a.p1 + 2 * off := rfl
  have e2 : (at3 2 a off).p2 = a.p2 + 2 * off := rfl
  have e3 : (at3 2 a off).y = a.y + 2 * off := rfl
  have d : ∀ p, 4 ∣ p → 4 ∣ p + 2 * off := fun p hp => dvd_at (s := 2) (w := 2) hp hd
  rw [e1, e2, e3, load_ok 4 _ _ (d _ ha.1), Outcome.ok_bind, load_ok 4 _ _ (d _ ha.2.1), Outcome.ok_bind,
    load_ok 4 _ _ (d _ ha.2.2), Outcome.ok_bind, store_ok 4 _ _ _ (d _ ha.2.2), Outcome.ok_bind]
  have := storeu_written .multiplyAddComplex a m off 2
    (add (loadu (written .multiplyAddComplex a m off) (a.y + 2 * off))
      (complexProduct (loadu (written .multiplyAddComplex a m off) (a.p1 + 2 * off))
        (loadu (written .multiplyAddComplex a m off) (a.p2 + 2 * off)))) (by
      intro i hi
      have hi : i < 4 := by simpa [Fn.size] using hi
      unfold add
      rw [complexProduct_lane _ _ i (by omega), add_comm]
      exact cMultiplyAdd_lane a m hs off 2 hoff i (by omega) _ _ _ (fun _ _ => rfl) (fun _ _ => rfl) (fun _ _ => rfl))
  rw [show Fn.size .multiplyAddComplex = 2 from rfl] at this
  rw [this, Outcome.pure_eq, ← at3_advance 2 a off 2]

theorem cMultiplyAddScalar_ok (a : Args K) (m : Mem K) (hs : Separate .multiplyAddComplex a) (off : Nat)
    (hoff : off + 1 ≤ a.n) :
    cMultiplyAddScalar (at3 2 a off) (written .multiplyAddComplex a m off) =
      .ok (at3 2 a (off + 1), written .multiplyAddComplex a m (off + 1)) := by
  unfold cMultiplyAddScalar
  have e1 : (at3 2 a off).p1 = a.p1 + 2 * off := rfl
  have e2 : (at3 2 a off).p2 = a.p2 + 2 * off := rfl
  have e3 : (at3 2 a off).y = a.y + 2 * off := rfl
  have := storeu_written .multiplyAddComplex a m off 1
    (add (complexProductScalar (written .multiplyAddComplex a m off (a.p1 + 2 * off))
      (written .multiplyAddComplex a m off (a.p1 + 2 * off + 1)) (written .multiplyAddComplex a m off) (a.p2 + 2 * off))
      (loadl (broadcast (written .multiplyAddComplex a m off (a.p1 + 2 * off))) (written .multiplyAddComplex a m off)
        (a.y + 2 * off))) (by
      intro i hi
      have hi : i < 2 := by simpa [Fn.size] using hi
      unfold add loadl
      rw [complexProductScalar_lane _ _ _ _ i hi, if_pos hi]
      have h := cMultiplyAdd_lane a m hs off 1 hoff i (by omega)
        (fun j => written .multiplyAddComplex a m off (a.p1 + 2 * off + j))
        (fun j => written .multiplyAddComplex a m off (a.p2 + 2 * off + j))
        (fun j => written .multiplyAddComplex a m off (a.y + 2 * off + j))
        (fun _ _ => rfl) (fun _ _ => rfl) (fun _ _ => rfl)
      rw [← h]
      interval_cases i
      · simp only [Nat.zero_mod, if_true, Nat.add_zero]; ring
      · simp only [Nat.one_mod, one_ne_zero, if_false, Nat.sub_self, Nat.add_zero]; ring)
  rw [show Fn.size .multiplyAddComplex = 2 from rfl] at this
  rw [e1, e2, e3, ← at3_advance 2 a off 1]
  exact congrArg (fun x => Outcome.ok (_, x)) this

/-! ### Multiplication with a constant and addition -/

theorem cConstAdd_lane (a : Args K) (m : Mem K) (hs : Separate .constAddComplex a) (off w : Nat)
    (hoff : off + w ≤ a.n) (i : Nat) (hi : i < 2 * w) (A Y : Reg K)
    (hA : ∀ j < 2 * w, A j = written .constAddComplex a m off (a.p1 + 2 * off + j))
    (hY : ∀ j < 2 * w, Y j = written .constAddComplex a m off (a.y + 2 * off + j)) :
    (if i % 2 = 0 then a.re * A i - a.im * A (i + 1) else a.re * A i + a.im * A (i - 1)) + Y i =
      value .constAddComplex a m (Fn.size .constAddComplex * off + i) := by
  have hsz : Fn.size .constAddComplex = 2 := rfl
  have r1 : ∀ j < 2 * w, A j = m (a.p1 + 2 * off + j) := fun j hj => by
    rw [hA j hj]
    exact read_written (fn := .constAddComplex) (a := a) (m := m) (off := off) (i := j) hs.1 (by rw [hsz]; omega)
  have r3 : ∀ j < 2 * w, Y j = m (a.y + 2 * off + j) := fun j hj => by
    rw [hY j hj]
    exact read_written_y (fn := .constAddComplex)
  rw [hsz]
  simp only [value]
  by_cases hi2 : i % 2 = 0
  · rw [if_pos hi2, cell_even off i hi2, r1 i hi, r1 (i + 1) (by omega), r3 i hi,
      reAt_even _ _ _ _ hi2, reAt_even _ _ _ _ hi2, imAt_even _ _ _ _ hi2]
    ring
  · rw [if_neg hi2, cell_odd off i hi2, r1 i hi, r1 (i - 1) (by omega), r3 i hi,
      reAt_odd _ _ _ _ hi2, imAt_odd _ _ _ _ hi2, imAt_odd _ _ _ _ hi2]
    ring

theorem cConstAddBody4_ok (a : Args K) (m : Mem K) (hs : Separate .constAddComplex a) (aligned : Bool)
    (ha : aligned = true → 8 ∣ a.p1 ∧ 8 ∣ a.y) (off : Nat) (hd : 4 ∣ off) (hoff : off + 4 ≤ a.n) :
    cConstAddBody4 a.re a.im aligned (at2 2 a off) (written .constAddComplex a m off) =
      .ok (at2 2 a (off + 4), written .constAddComplex a m (off + 4)) := by
  unfold cConstAddBody4
  have d : ∀ p, (aligned = true → 8 ∣ p) → aligned = true → 8 ∣ p + 2 * off := fun p hp h =>
    dvd_at (s := 2) (w := 4) (hp h) hd
  have e1 : (at2 2 a off).p1 = a.p1 + 2 * off := rfl
  have e3 : (at2 2 a off).y = a.y + 2 * off := rfl
  rw [e1, e3, loadIf_ok aligned 8 _ _ (d _ fun h => (ha h).1), Outcome.ok_bind,
    loadIf_ok aligned 8 _ _ (d _ fun h => (ha h).2), Outcome.ok_bind,
    storeIf_ok aligned 8 _ _ _ (d _ fun h => (ha h).2), Outcome.ok_bind]
  have := storeu_written .constAddComplex a m off 4
    (add (constProduct a.re a.im (loadu (written .constAddComplex a m off) (a.p1 + 2 * off)))
      (loadu (written .constAddComplex a m off) (a.y + 2 * off))) (by
      intro i hi
      have hi : i < 8 := by simpa [Fn.size] using hi
      unfold add
      rw [constProduct_lane _ _ _ i hi]
      exact cConstAdd_lane a m hs off 4 hoff i (by omega) _ _ (fun _ _ => rfl) (fun _ _ => rfl))
  rw [show Fn.size .constAddComplex = 2 from rfl] at this
  rw [this, Outcome.pure_eq, ← at2_advance 2 a off 4]

theorem cConstAddBody2_ok (a : Args K) (m : Mem K) (hs : Separate .constAddComplex a) (ha : 4 ∣ a.p1 ∧ 4 ∣ a.y)
    (off : Nat) (hd : 2 ∣ off) (hoff : off + 2 ≤ a.n) :
    cConstAddBody2 a.re a.im (at2 2 a off) (written .constAddComplex a m off) =
      .ok (at2 2 a (off + 2), written .constAddComplex a m (off + 2)) := by
  unfold cConstAddBody2
  have e1 : (at2 2 a off).p1 = a.p1 + 2 * off := rfl
  have e3 : (at2 2 a off).y = a.y + 2 * off := rfl
  have d : ∀ p, 4 ∣ p → 4 ∣ p + 2 * off := fun p hp => dvd_at (s := 2) (w := 2) hp hd
  rw [e1, e3, load_ok 4 _ _ (d _ ha.1), Outcome.ok_bind, load_ok 4 _ _ (d _ ha.2), Outcome.ok_bind,
    store_ok 4 _ _ _ (d _ ha.2), Outcome.ok_bind]
  have := storeu_written .constAddComplex a m off 2
    (add (constProduct a.re a.im (loadu (written .constAddComplex a m off) (a.p1 + 2 * off)))
      (loadu (written .constAddComplex a m off) (a.y + 2 * off))) (by
      intro i hi
      have hi : i < 4 := by simpa [Fn.size] using hi
      unfold add
      rw [constProduct_lane _ _ _ i (by omega)]
      exact cConstAdd_lane a m hs off 2 hoff i (by omega) _ _ (fun _ _ => rfl) (fun _ _ => rfl))
  rw [show Fn.size .constAddComplex = 2 from rfl] at this
  rw [this, Outcome.pure_eq, ← at2_advance 2 a off 2]

theorem cConstAddScalar_ok (a : Args K) (m : Mem K) (hs : Separate .constAddComplex a) (off : Nat)
    (hoff : off + 1 ≤ a.n) :
    cConstAddScalar a.re a.im (at2 2 a off) (written .constAddComplex a m off) =
      .ok (at2 2 a (off + 1), written .constAddComplex a m (off + 1)) := by
  unfold cConstAddScalar
  have e1 : (at2 2 a off).p1 = a.p1 + 2 * off := rfl
  have e3 : (at2 2 a off).y = a.y + 2 * off := rfl
  have := storeu_written .constAddComplex a m off 1
    (add (complexProductScalar a.re a.im (written .constAddComplex a m off) (a.p1 + 2 * off))
      (loadl (broadcast a.re) (written .constAddComplex a m off) (a.y + 2 * off))) (by
      intro i hi
      have hi : i < 2 := by simpa [Fn.size] using hi
      unfold add loadl
      rw [complexProductScalar_lane _ _ _ _ i hi, if_pos hi]
      exact cConstAdd_lane a m hs off 1 hoff i (by omega)
        (fun j => written .constAddComplex a m off (a.p1 + 2 * off + j))
        (fun j => written .constAddComplex a m off (a.y + 2 * off + j)) (fun _ _ => rfl) (fun _ _ => rfl))
  rw [show Fn.size .constAddComplex = 2 from rfl] at this
  rw [e1, e3, ← at2_advance 2 a off 1]
  exact congrArg (fun x => Outcome.ok (_, x)) this

end Visr.Simd
