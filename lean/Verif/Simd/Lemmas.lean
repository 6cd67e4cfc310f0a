import Verif.Simd.Spec
import Verif.Efl.PropsAligned
import Mathlib.Tactic.Ring
import Mathlib.Tactic.IntervalCases

/-!
# Lemmas about the vectorised functions
-/

namespace Visr.Simd
open Visr

variable {K : Type} [CommRing K]

/-! ### Alignment -/

theorem check_iff (s p al : Nat) (hal : al < 2 ^ 64) :
    check s p al = true ↔ al = 0 ∨ ((∃ k, al = 2 ^ k) ∧ p % (al * s) = 0) := by
  unfold check
  simp only [Bool.or_eq_true, decide_eq_true_eq, Bool.and_eq_true, Efl.alignmentIsPowerOfTwo_iff, BitVec.toNat_ofNat,
    Nat.mod_eq_of_lt hal]

theorem check_dvd {s p al : Nat} (hal : al < 2 ^ 64) (hc : check s p al = true) (j : Nat) (hj : 2 ^ j ≤ al) :
    2 ^ j * s ∣ p := by
  rcases (check_iff s p al hal).1 hc with h | ⟨⟨k, hk⟩, hp⟩
  · have := Nat.two_pow_pos j; omega
  · subst hk
    have hjk : j ≤ k := (Nat.pow_le_pow_iff_right (by omega)).1 hj
    exact (Nat.mul_dvd_mul_right (Nat.pow_dvd_pow 2 hjk) s).trans (Nat.dvd_of_mod_eq_zero hp)

/-! ### Memory -/

theorem written_zero (fn : Fn) (a : Args K) (m : Mem K) : written fn a m 0 = m := by
  funext q
  unfold written
  rw [if_neg (by omega)]

theorem storeu_written (fn : Fn) (a : Args K) (m : Mem K) (off w : Nat) (r : Reg K)
    (hr : ∀ i, i < fn.size * w → r i = value fn a m (fn.size * off + i)) :
    storeu (fn.size * w) (written fn a m off) (a.y + fn.size * off) r = written fn a m (off + w) := by
  funext q
  unfold storeu written
  have e : fn.size * (off + w) = fn.size * off + fn.size * w := Nat.mul_add _ _ _
  by_cases h1 : a.y + fn.size * off ≤ q ∧ q < a.y + fn.size * off + fn.size * w
  · rw [if_pos h1, if_pos (by omega), hr _ (by omega)]
    congr 1
    omega
  · rw [if_neg h1]
    by_cases h2 : a.y ≤ q ∧ q < a.y + fn.size * off
    · rw [if_pos h2, if_pos (by omega)]
    · rw [if_neg h2, if_neg (by omega)]

theorem read_written {fn : Fn} {a : Args K} {m : Mem K} {p off i N : Nat} (h : NoConflict p a.y N)
    (hi : fn.size * off + i < N) : written fn a m off (p + fn.size * off + i) = m (p + fn.size * off + i) := by
  unfold written
  rw [if_neg]
  unfold NoConflict at h
  omega

theorem read_written_y {fn : Fn} {a : Args K} {m : Mem K} {off i : Nat} :
    written fn a m off (a.y + fn.size * off + i) = m (a.y + fn.size * off + i) := by
  unfold written
  rw [if_neg (by omega)]

/-! ### Loops -/

theorem loop_at (w : Nat) (hw : 0 < w) (body : Ptr → Mem K → Outcome (Ptr × Mem K)) (P : Nat → Ptr) (R : Nat → Mem K)
    (N : Nat) (hbody : ∀ off, w ∣ off → off + w ≤ N → body (P off) (R off) = .ok (P (off + w), R (off + w))) :
    ∀ cnt off, off + cnt = N → w ∣ off →
      ∃ off' cnt', off' + cnt' = N ∧ w ∣ off' ∧ cnt' < w ∧ off ≤ off' ∧
        loop w body cnt (P off) (R off) = .ok (cnt', P off', R off') := by
  intro cnt
  induction cnt using Nat.strongRecOn with
  | ind cnt ih =>
    intro off hN hd
    by_cases hc : w ≤ cnt
    · obtain ⟨off', cnt', h1, h2, h3, h5, h4⟩ :=
        ih (cnt - w) (by omega) (off + w) (by omega) ((Nat.dvd_add_right hd).2 (Nat.dvd_refl w))
      refine ⟨off', cnt', h1, h2, h3, by omega, ?_⟩
      rw [loop, dif_pos ⟨hw, hc⟩, hbody off hd (by omega)]
      exact h4
    · refine ⟨off, cnt, hN, hd, by omega, le_refl _, ?_⟩
      rw [loop, dif_neg (by omega)]

theorem loadIf_ok (aligned : Bool) (w : Nat) (m : Mem K) (p : Nat) (h : aligned = true → w ∣ p) :
    loadIf aligned w m p = .ok (loadu m p) := by
  unfold loadIf load
  cases aligned with
  | false => rfl
  | true => rw [if_pos rfl, if_pos (Nat.mod_eq_zero_of_dvd (h rfl))]

theorem load_ok (w : Nat) (m : Mem K) (p : Nat) (h : w ∣ p) : load w m p = .ok (loadu m p) := by
  unfold load
  rw [if_pos (Nat.mod_eq_zero_of_dvd h)]

theorem storeIf_ok (aligned : Bool) (w : Nat) (m : Mem K) (p : Nat) (r : Reg K) (h : aligned = true → w ∣ p) :
    storeIf aligned w m p r = .ok (storeu w m p r) := by
  unfold storeIf store
  cases aligned with
  | false => rfl
  | true => rw [if_pos rfl, if_pos (Nat.mod_eq_zero_of_dvd (h rfl))]

theorem store_ok (w : Nat) (m : Mem K) (p : Nat) (r : Reg K) (h : w ∣ p) : store w m p r = .ok (storeu w m p r) := by
  unfold store
  rw [if_pos (Nat.mod_eq_zero_of_dvd h)]

theorem mulAdd_apply (f : Feature) (a b c : Reg K) (i : Nat) : mulAdd f a b c i = a i * b i + c i := by
  unfold mulAdd
  split_ifs <;> rfl

/-- The pointers after `off` elements. -/
def at3 (s : Nat) (a : Args K) (off : Nat) : Ptr := ⟨a.p1 + s * off, a.p2 + s * off, a.y + s * off⟩

/-- The pointers after `off` elements if the second one is not used. -/
def at2 (s : Nat) (a : Args K) (off : Nat) : Ptr := ⟨a.p1 + s * off, 0, a.y + s * off⟩

/-! ### Multiplication -/

theorem multiplyBody_ok (fn : Fn) (hfn : fn = .multiplyFloat ∨ fn = .multiplyDouble) (a : Args K) (m : Mem K)
    (hs : Separate fn a) (aligned : Bool) (w : Nat) (ha : aligned = true → w ∣ a.p1 ∧ w ∣ a.p2 ∧ w ∣ a.y) (off : Nat)
    (hd : w ∣ off) (hoff : off + w ≤ a.n) :
    multiplyBody aligned w (at3 1 a off) (written fn a m off) = .ok (at3 1 a (off + w), written fn a m (off + w)) := by
  have hsz : fn.size = 1 := by rcases hfn with rfl | rfl <;> rfl
  have hu : fn.usesP2 = true := by rcases hfn with rfl | rfl <;> rfl
  unfold multiplyBody
  have d1 : aligned = true → w ∣ a.p1 + 1 * off := fun h => by
    rw [one_mul]; exact (Nat.dvd_add_right (ha h).1).2 hd
  have d2 : aligned = true → w ∣ a.p2 + 1 * off := fun h => by
    rw [one_mul]; exact (Nat.dvd_add_right (ha h).2.1).2 hd
  have d3 : aligned = true → w ∣ a.y + 1 * off := fun h => by
    rw [one_mul]; exact (Nat.dvd_add_right (ha h).2.2).2 hd
  simp only [at3]
  rw [loadIf_ok aligned w _ _ d1, Outcome.ok_bind, loadIf_ok aligned w _ _ d2, Outcome.ok_bind,
    storeIf_ok aligned w _ _ _ d3, Outcome.ok_bind]
  have := storeu_written fn a m off w (mul (loadu (written fn a m off) (a.p1 + 1 * off))
    (loadu (written fn a m off) (a.p2 + 1 * off))) (by
      intro i hi
      have r1 := read_written (fn := fn) (a := a) (m := m) (off := off) (i := i) hs.1 (by rw [hsz] at *; omega)
      have r2 := read_written (fn := fn) (a := a) (m := m) (off := off) (i := i) (hs.2 hu) (by rw [hsz] at *; omega)
      rw [hsz] at r1 r2
      simp only [mul, loadu]
      rw [r1, r2, hsz]
      rcases hfn with rfl | rfl <;> simp only [value, Nat.add_assoc])
  rw [hsz, one_mul] at this
  rw [this]
  simp only [Outcome.pure_eq, Ptr.advance, one_mul]
  congr 3 <;> omega

theorem multiplyScalar_ok (fn : Fn) (hfn : fn = .multiplyFloat ∨ fn = .multiplyDouble) (a : Args K) (m : Mem K)
    (hs : Separate fn a) (off : Nat) (hoff : off + 1 ≤ a.n) :
    multiplyScalar (at3 1 a off) (written fn a m off) = .ok (at3 1 a (off + 1), written fn a m (off + 1)) := by
  have hsz : fn.size = 1 := by rcases hfn with rfl | rfl <;> rfl
  have hu : fn.usesP2 = true := by rcases hfn with rfl | rfl <;> rfl
  unfold multiplyScalar
  simp only [at3]
  have := storeu_written fn a m off 1 (mul (loadS (written fn a m off) (a.p1 + 1 * off))
    (loadS (written fn a m off) (a.p2 + 1 * off))) (by
      intro i hi
      have r1 := read_written (fn := fn) (a := a) (m := m) (off := off) (i := i) hs.1 (by rw [hsz] at *; omega)
      have r2 := read_written (fn := fn) (a := a) (m := m) (off := off) (i := i) (hs.2 hu) (by rw [hsz] at *; omega)
      have hi0 : i = 0 := by rw [hsz] at hi; omega
      subst hi0
      rw [hsz] at r1 r2
      simp only [mul, loadS, if_true]
      rw [Nat.add_zero] at r1 r2
      rw [r1, r2, hsz]
      rcases hfn with rfl | rfl <;> simp only [value, Nat.add_assoc, Nat.add_zero])
  rw [hsz, one_mul] at this
  rw [this]
  simp only [Ptr.advance, one_mul]
  congr 3

theorem dvd_at {s w p off : Nat} (hp : s * w ∣ p) (hd : w ∣ off) : s * w ∣ p + s * off :=
  (Nat.dvd_add_right hp).2 (Nat.mul_dvd_mul_left s hd)

/-- All three vectors are aligned to `k` cells. -/
def AllDvd (k : Nat) (a : Args K) : Prop := k ∣ a.p1 ∧ k ∣ a.p2 ∧ k ∣ a.y

theorem at3_advance (s : Nat) (a : Args K) (off w : Nat) :
    (at3 s a off).advance (s * w) (s * w) (s * w) = at3 s a (off + w) := by
  simp only [at3, Ptr.advance, Nat.mul_add, Nat.add_assoc]

theorem at2_advance (s : Nat) (a : Args K) (off w : Nat) :
    (at2 s a off).advance (s * w) 0 (s * w) = at2 s a (off + w) := by
  simp only [at2, Ptr.advance, Nat.mul_add, Nat.add_assoc, Nat.add_zero]

/-! ### Multiplication and addition -/

theorem multiplyAdd_lane (fn : Fn) (hfn : fn = .multiplyAddFloat ∨ fn = .multiplyAddDouble) (a : Args K) (m : Mem K)
    (hs : Separate fn a) (off i w : Nat) (hoff : off + w ≤ a.n) (hi : i < w) :
    written fn a m off (a.p1 + 1 * off + i) * written fn a m off (a.p2 + 1 * off + i) +
      written fn a m off (a.y + 1 * off + i) = value fn a m (fn.size * off + i) := by
  have hsz : fn.size = 1 := by rcases hfn with rfl | rfl <;> rfl
  have hu : fn.usesP2 = true := by rcases hfn with rfl | rfl <;> rfl
  have r1 := read_written (fn := fn) (a := a) (m := m) (off := off) (i := i) hs.1 (by rw [hsz] at *; omega)
  have r2 := read_written (fn := fn) (a := a) (m := m) (off := off) (i := i) (hs.2 hu) (by rw [hsz] at *; omega)
  have r3 := read_written_y (fn := fn) (a := a) (m := m) (off := off) (i := i)
  rw [hsz] at r1 r2 r3
  rw [r1, r2, r3, hsz]
  rcases hfn with rfl | rfl <;> simp only [value, Nat.add_assoc] <;> ring

theorem multiplyAddBody_ok (fn : Fn) (hfn : fn = .multiplyAddFloat ∨ fn = .multiplyAddDouble) (f : Feature) (a : Args K)
    (m : Mem K) (hs : Separate fn a) (aligned : Bool) (w : Nat) (ha : aligned = true → AllDvd w a) (off : Nat)
    (hd : w ∣ off) (hoff : off + w ≤ a.n) :
    multiplyAddBody f aligned w (at3 1 a off) (written fn a m off) =
      .ok (at3 1 a (off + w), written fn a m (off + w)) := by
  have hsz : fn.size = 1 := by rcases hfn with rfl | rfl <;> rfl
  unfold multiplyAddBody
  have d : ∀ p, (aligned = true → w ∣ p) → aligned = true → w ∣ p + 1 * off := fun p hp h => by
    have := dvd_at (s := 1) (w := w) (p := p) (off := off) (by rw [one_mul]; exact hp h) hd
    rwa [one_mul] at this
  have e1 : (at3 1 a off).p1 = a.p1 + 1 * off := rfl
  have e2 : (at3 1 a off).p2 = a.p2 + 1 * off := rfl
  have e3 : (at3 1 a off).y = a.y + 1 * off := rfl
  rw [e1, e2, e3, loadIf_ok aligned w _ _ (d _ fun h => (ha h).1), Outcome.ok_bind,
    loadIf_ok aligned w _ _ (d _ fun h => (ha h).2.1), Outcome.ok_bind,
    loadIf_ok aligned w _ _ (d _ fun h => (ha h).2.2), Outcome.ok_bind,
    storeIf_ok aligned w _ _ _ (d _ fun h => (ha h).2.2), Outcome.ok_bind]
  have := storeu_written fn a m off w (mulAdd f (loadu (written fn a m off) (a.p1 + 1 * off))
    (loadu (written fn a m off) (a.p2 + 1 * off)) (loadu (written fn a m off) (a.y + 1 * off))) (by
      intro i hi
      rw [mulAdd_apply]
      exact multiplyAdd_lane fn hfn a m hs off i w hoff (by rw [hsz] at hi; omega))
  rw [hsz, one_mul] at this
  rw [one_mul (M := ℕ) off] at *
  rw [this, Outcome.pure_eq]
  have := at3_advance 1 a off w
  rw [one_mul] at this
  rw [this]

theorem multiplyAddScalar_ok (fn : Fn) (hfn : fn = .multiplyAddFloat ∨ fn = .multiplyAddDouble) (f : Feature) (a : Args K)
    (m : Mem K) (hs : Separate fn a) (off : Nat) (hoff : off + 1 ≤ a.n) :
    multiplyAddScalar f (at3 1 a off) (written fn a m off) = .ok (at3 1 a (off + 1), written fn a m (off + 1)) := by
  have hsz : fn.size = 1 := by rcases hfn with rfl | rfl <;> rfl
  unfold multiplyAddScalar
  have := storeu_written fn a m off 1 (mulAdd f (loadS (written fn a m off) (a.p1 + 1 * off))
    (loadS (written fn a m off) (a.p2 + 1 * off)) (loadS (written fn a m off) (a.y + 1 * off))) (by
      intro i hi
      have hi0 : i = 0 := by rw [hsz] at hi; omega
      subst hi0
      rw [mulAdd_apply]
      simp only [loadS, if_true]
      exact multiplyAdd_lane fn hfn a m hs off 0 1 hoff (by omega))
  rw [hsz, one_mul] at this
  rw [← at3_advance 1 a off 1]
  simp only [at3, Ptr.advance, Nat.one_mul] at *
  rw [this]

/-! ### Multiplication with a constant and addition -/

theorem constAdd_lane (a : Args K) (m : Mem K) (hs : Separate .constAddFloat a) (off i w : Nat) (hoff : off + w ≤ a.n)
    (hi : i < w) :
    written .constAddFloat a m off (a.p1 + 1 * off + i) * a.re + written .constAddFloat a m off (a.y + 1 * off + i) =
      value .constAddFloat a m (Fn.size .constAddFloat * off + i) := by
  have hsz : Fn.size .constAddFloat = 1 := rfl
  have r1 := read_written (fn := .constAddFloat) (a := a) (m := m) (off := off) (i := i) hs.1 (by rw [hsz] at *; omega)
  have r3 := read_written_y (fn := .constAddFloat) (a := a) (m := m) (off := off) (i := i)
  rw [hsz] at r1 r3
  rw [r1, r3, hsz]
  simp only [value, Nat.add_assoc]
  ring

theorem constAddBody8_ok (f : Feature) (a : Args K) (m : Mem K) (hs : Separate .constAddFloat a) (aligned : Bool)
    (ha : aligned = true → 8 ∣ a.p1 ∧ 8 ∣ a.y) (off : Nat) (hd : 8 ∣ off) (hoff : off + 8 ≤ a.n) :
    constAddBody8 f a.re aligned (at2 1 a off) (written .constAddFloat a m off) =
      .ok (at2 1 a (off + 8), written .constAddFloat a m (off + 8)) := by
  unfold constAddBody8
  have d : ∀ p, (aligned = true → 8 ∣ p) → aligned = true → 8 ∣ p + 1 * off := fun p hp h => by
    rw [one_mul]; exact (Nat.dvd_add_right (hp h)).2 hd
  have e1 : (at2 1 a off).p1 = a.p1 + 1 * off := rfl
  have e3 : (at2 1 a off).y = a.y + 1 * off := rfl
  rw [e1, e3, loadIf_ok aligned 8 _ _ (d _ fun h => (ha h).1), Outcome.ok_bind,
    loadIf_ok aligned 8 _ _ (d _ fun h => (ha h).2), Outcome.ok_bind,
    storeIf_ok aligned 8 _ _ _ (d _ fun h => (ha h).2), Outcome.ok_bind]
  have := storeu_written .constAddFloat a m off 8
    (mulAdd f (loadu (written .constAddFloat a m off) (a.p1 + 1 * off)) (broadcast a.re)
      (loadu (written .constAddFloat a m off) (a.y + 1 * off))) (by
      intro i hi
      rw [mulAdd_apply]
      exact constAdd_lane a m hs off i 8 hoff (by simpa [Fn.size] using hi))
  rw [show Fn.size .constAddFloat = 1 from rfl, one_mul] at this
  rw [this, Outcome.pure_eq, ← at2_advance 1 a off 8]

theorem constAddBody4_ok (f : Feature) (a : Args K) (m : Mem K) (hs : Separate .constAddFloat a)
    (ha : 4 ∣ a.y) (off : Nat) (hd : 4 ∣ off) (hoff : off + 4 ≤ a.n) :
    constAddBody4 f a.re (at2 1 a off) (written .constAddFloat a m off) =
      .ok (at2 1 a (off + 4), written .constAddFloat a m (off + 4)) := by
  unfold constAddBody4
  have e1 : (at2 1 a off).p1 = a.p1 + 1 * off := rfl
  have e3 : (at2 1 a off).y = a.y + 1 * off := rfl
  simp only [e1, e3]
  rw [store_ok 4 _ _ _ (by rw [one_mul]; exact (Nat.dvd_add_right ha).2 hd), Outcome.ok_bind]
  have := storeu_written .constAddFloat a m off 4
    (mulAdd f (loadu (written .constAddFloat a m off) (a.p1 + 1 * off)) (broadcast a.re)
      (loadu (written .constAddFloat a m off) (a.y + 1 * off))) (by
      intro i hi
      rw [mulAdd_apply]
      exact constAdd_lane a m hs off i 4 hoff (by simpa [Fn.size] using hi))
  rw [show Fn.size .constAddFloat = 1 from rfl, one_mul] at this
  rw [this, Outcome.pure_eq, ← at2_advance 1 a off 4]

theorem constAddScalar_ok (f : Feature) (a : Args K) (m : Mem K) (hs : Separate .constAddFloat a) (off : Nat)
    (hoff : off + 1 ≤ a.n) :
    constAddScalar f a.re (at2 1 a off) (written .constAddFloat a m off) =
      .ok (at2 1 a (off + 1), written .constAddFloat a m (off + 1)) := by
  unfold constAddScalar
  have := storeu_written .constAddFloat a m off 1
    (mulAdd f (loadS (written .constAddFloat a m off) (a.p1 + 1 * off)) (broadcast a.re)
      (loadS (written .constAddFloat a m off) (a.y + 1 * off))) (by
      intro i hi
      have hi0 : i = 0 := by simp only [Fn.size] at hi; omega
      subst hi0
      rw [mulAdd_apply]
      simp only [loadS, if_true]
      exact constAdd_lane a m hs off 0 1 hoff (by omega))
  rw [show Fn.size .constAddFloat = 1 from rfl, one_mul] at this
  rw [← at2_advance 1 a off 1]
  simp only [at2, Ptr.advance, Nat.one_mul] at *
  rw [this]

/-! ### Ramp scaling -/

theorem ramp_lane (a : Args K) (m : Mem K) (hs : Separate .rampFloat a) (off i w : Nat) (hoff : off + w ≤ a.n)
    (hi : i < w) :
    (if a.accumulate = true then
      (written .rampFloat a m off (a.p2 + 1 * off + i) * a.im + a.re) * written .rampFloat a m off (a.p1 + 1 * off + i) +
        written .rampFloat a m off (a.y + 1 * off + i)
    else
      (written .rampFloat a m off (a.p2 + 1 * off + i) * a.im + a.re) * written .rampFloat a m off (a.p1 + 1 * off + i)) =
      value .rampFloat a m (Fn.size .rampFloat * off + i) := by
  have hsz : Fn.size .rampFloat = 1 := rfl
  have r1 := read_written (fn := .rampFloat) (a := a) (m := m) (off := off) (i := i) hs.1 (by rw [hsz] at *; omega)
  have r2 := read_written (fn := .rampFloat) (a := a) (m := m) (off := off) (i := i) (hs.2 rfl) (by rw [hsz] at *; omega)
  have r3 := read_written_y (fn := .rampFloat) (a := a) (m := m) (off := off) (i := i)
  rw [hsz] at r1 r2 r3
  rw [r1, r2, r3, hsz]
  simp only [value, Nat.add_assoc]
  split_ifs <;> ring

theorem rampBody_ok (f : Feature) (a : Args K) (m : Mem K) (hs : Separate .rampFloat a) (aligned : Bool) (w : Nat)
    (ha : aligned = true → AllDvd w a) (off : Nat) (hd : w ∣ off) (hoff : off + w ≤ a.n) :
    rampBody f a.re a.im a.accumulate aligned w (at3 1 a off) (written .rampFloat a m off) =
      .ok (at3 1 a (off + w), written .rampFloat a m (off + w)) := by
  unfold rampBody
  have d : ∀ p, (aligned = true → w ∣ p) → aligned = true → w ∣ p + 1 * off := fun p hp h => by
    rw [one_mul]; exact (Nat.dvd_add_right (hp h)).2 hd
  have e1 : (at3 1 a off).p1 = a.p1 + 1 * off := rfl
  have e2 : (at3 1 a off).p2 = a.p2 + 1 * off := rfl
  have e3 : (at3 1 a off).y = a.y + 1 * off := rfl
  have hadv := at3_advance 1 a off w
  rw [one_mul] at hadv
  rw [e1, e2, e3, loadIf_ok aligned w _ _ (d _ fun h => (ha h).2.1), Outcome.ok_bind,
    loadIf_ok aligned w _ _ (d _ fun h => (ha h).1), Outcome.ok_bind]
  cases hacc : a.accumulate with
  | true =>
    simp only [if_true]
    rw [loadIf_ok aligned w _ _ (d _ fun h => (ha h).2.2), Outcome.ok_bind,
      storeIf_ok aligned w _ _ _ (d _ fun h => (ha h).2.2), Outcome.ok_bind]
    have := storeu_written .rampFloat a m off w
      (mulAdd f (mulAdd f (loadu (written .rampFloat a m off) (a.p2 + 1 * off)) (broadcast a.im) (broadcast a.re))
        (loadu (written .rampFloat a m off) (a.p1 + 1 * off)) (loadu (written .rampFloat a m off) (a.y + 1 * off))) (by
        intro i hi
        rw [mulAdd_apply, mulAdd_apply]
        have := ramp_lane a m hs off i w hoff (by simpa [Fn.size] using hi)
        rw [if_pos hacc] at this
        exact this)
    rw [show Fn.size .rampFloat = 1 from rfl, one_mul] at this
    rw [this, Outcome.pure_eq, hadv]
  | false =>
    simp only [Bool.false_eq_true, if_false]
    rw [storeIf_ok aligned w _ _ _ (d _ fun h => (ha h).2.2), Outcome.ok_bind]
    have := storeu_written .rampFloat a m off w
      (mul (mulAdd f (loadu (written .rampFloat a m off) (a.p2 + 1 * off)) (broadcast a.im) (broadcast a.re))
        (loadu (written .rampFloat a m off) (a.p1 + 1 * off))) (by
        intro i hi
        show mulAdd f _ _ _ i * _ = _
        rw [mulAdd_apply]
        have := ramp_lane a m hs off i w hoff (by simpa [Fn.size] using hi)
        rw [if_neg (by simp [hacc])] at this
        exact this)
    rw [show Fn.size .rampFloat = 1 from rfl, one_mul] at this
    rw [this, Outcome.pure_eq, hadv]

theorem rampScalar_ok (a : Args K) (m : Mem K) (hs : Separate .rampFloat a) (off : Nat) (hoff : off + 1 ≤ a.n) :
    rampScalar a.re a.im a.accumulate (at3 1 a off) (written .rampFloat a m off) =
      .ok (at3 1 a (off + 1), written .rampFloat a m (off + 1)) := by
  unfold rampScalar
  have e1 : (at3 1 a off).p1 = a.p1 + 1 * off := rfl
  have e2 : (at3 1 a off).p2 = a.p2 + 1 * off := rfl
  have e3 : (at3 1 a off).y = a.y + 1 * off := rfl
  have hadv := at3_advance 1 a off 1
  rw [one_mul] at hadv
  rw [hadv]
  simp only [e1, e2, e3]
  cases hacc : a.accumulate with
  | true =>
    simp only [if_true]
    have := storeu_written .rampFloat a m off 1
      (add (mul (add (mul (loadS (written .rampFloat a m off) (a.p2 + 1 * off)) (broadcast a.im)) (broadcast a.re))
        (loadS (written .rampFloat a m off) (a.p1 + 1 * off))) (loadS (written .rampFloat a m off) (a.y + 1 * off))) (by
        intro i hi
        have hi0 : i = 0 := by simp only [Fn.size] at hi; omega
        subst hi0
        have := ramp_lane a m hs off 0 1 hoff (by omega)
        rw [if_pos hacc] at this
        simpa only [add, mul, loadS, broadcast, if_true, Nat.add_zero] using this)
    rw [show Fn.size .rampFloat = 1 from rfl, one_mul] at this
    rw [this]
  | false =>
    simp only [Bool.false_eq_true, if_false]
    have := storeu_written .rampFloat a m off 1
      (mul (add (mul (loadS (written .rampFloat a m off) (a.p2 + 1 * off)) (broadcast a.im)) (broadcast a.re))
        (loadS (written .rampFloat a m off) (a.p1 + 1 * off))) (by
        intro i hi
        have hi0 : i = 0 := by simp only [Fn.size] at hi; omega
        subst hi0
        have := ramp_lane a m hs off 0 1 hoff (by omega)
        rw [if_neg (by simp [hacc])] at this
        simpa only [add, mul, loadS, broadcast, if_true, Nat.add_zero] using this)
    rw [show Fn.size .rampFloat = 1 from rfl, one_mul] at this
    rw [this]

end Visr.Simd
