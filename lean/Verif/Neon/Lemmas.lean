import Verif.Neon.Spec
import Verif.Simd.Lemmas
import Mathlib.Tactic.Ring
import Mathlib.Tactic.IntervalCases

/-!
# Lemmas about the NEON functions
-/

namespace Visr.Neon
open Visr Simd

variable {K : Type} [CommRing K]

theorem accessible_iff (m : Memory K) (p w : Nat) :
    accessible m p w = true ↔ ∀ i, i < w → (m (p + i)).isSome = true := by
  simp [accessible, List.all_eq_true]

theorem written_zero (fn : Fn) (a : Args K) (m : Memory K) : written fn a m 0 = m := by
  funext q
  unfold written
  rw [if_neg (by omega)]

theorem written_isSome (fn : Fn) (a : Args K) (m : Memory K) (off q : Nat) (h : (m q).isSome = true) :
    (written fn a m off q).isSome = true := by
  unfold written
  split_ifs
  · rfl
  · exact h

theorem written_read {fn : Fn} {a : Args K} {m : Memory K} {p off i : Nat} (hs : Separate fn a) (hp : p ∈ vectors fn a)
    (hi : fn.size * off + i < fn.size * a.n) :
    val (written fn a m off) (p + fn.size * off + i) = val m (p + fn.size * off + i) := by
  unfold val written
  rw [if_neg]
  rcases hs p hp with h | h | h <;> omega

theorem written_accessible {fn : Fn} {a : Args K} {m : Memory K} {p off k : Nat} (hacc : Accessible fn a m)
    (hp : p ∈ vectors fn a) (hk : fn.size * off + k ≤ fn.size * a.n) :
    accessible (written fn a m off) (p + fn.size * off) k = true := by
  rw [accessible_iff]
  intro i hi
  apply written_isSome
  have := hacc p hp (fn.size * off + i) (by omega)
  rwa [← Nat.add_assoc] at this

theorem y_mem (fn : Fn) (a : Args K) : a.y ∈ vectors fn a := by simp [vectors]

theorem vst1_written {fn : Fn} {a : Args K} {m : Memory K} {off w : Nat} (hacc : Accessible fn a m) (hoff : off + w ≤ a.n)
    (r : Reg K) (hr : ∀ i, i < fn.size * w → r i = value fn a m (fn.size * off + i)) :
    vst1 (fn.size * w) (written fn a m off) (a.y + fn.size * off) r = .ok (written fn a m (off + w)) := by
  have e : fn.size * (off + w) = fn.size * off + fn.size * w := Nat.mul_add _ _ _
  have hle : fn.size * (off + w) ≤ fn.size * a.n := Nat.mul_le_mul_left _ hoff
  unfold vst1
  rw [if_pos (written_accessible hacc (y_mem fn a) (by omega))]
  congr 1
  funext q
  unfold written
  by_cases h1 : a.y + fn.size * off ≤ q ∧ q < a.y + fn.size * off + fn.size * w
  · rw [if_pos h1, if_pos (by omega), hr _ (by omega)]
    congr 2
    omega
  · rw [if_neg h1]
    by_cases h2 : a.y ≤ q ∧ q < a.y + fn.size * off
    · rw [if_pos h2, if_pos (by omega)]
    · rw [if_neg h2, if_neg (by omega)]

/-! ### Real elements -/

section Real
variable {fn : Fn} {a : Args K} {m : Memory K} {off w : Nat}

theorem vld1_real (hc : fn.complex = false) (hacc : Accessible fn a m) {p : Nat} (hp : p ∈ vectors fn a) (hoff : off + w ≤ a.n) :
    vld1 w (written fn a m off) (p + off) = .ok (fun i => val (written fn a m off) (p + off + i)) := by
  have hz : fn.size = 1 := by simp [Fn.size, hc]
  have := written_accessible hacc hp (off := off) (k := w) (by rw [hz]; omega)
  rw [hz, one_mul] at this
  unfold vld1
  rw [if_pos this]

theorem vld1Lane_real (hc : fn.complex = false) (hacc : Accessible fn a m) {p : Nat} (hp : p ∈ vectors fn a)
    (hoff : off + 1 ≤ a.n) (g : Reg K) :
    vld1Lane (written fn a m off) (p + off) g = .ok (fun i => if i = 0 then val (written fn a m off) (p + off) else g i) := by
  have hz : fn.size = 1 := by simp [Fn.size, hc]
  have := written_accessible hacc hp (off := off) (k := 1) (by rw [hz]; omega)
  rw [hz, one_mul] at this
  unfold vld1Lane
  rw [if_pos this]

theorem read_real (hc : fn.complex = false) (hs : Separate fn a) {p i : Nat} (hp : p ∈ vectors fn a) (hi : off + i < a.n) :
    val (written fn a m off) (p + off + i) = realAt m p (off + i) := by
  have hz : fn.size = 1 := by simp [Fn.size, hc]
  have := written_read (m := m) hs hp (off := off) (i := i) (by rw [hz]; omega)
  rw [hz, one_mul] at this
  rw [this, realAt, Nat.add_assoc]

theorem read_real0 (hc : fn.complex = false) (hs : Separate fn a) {p : Nat} (hp : p ∈ vectors fn a) (hi : off < a.n) :
    val (written fn a m off) (p + off) = realAt m p off := read_real (i := 0) hc hs hp hi

theorem vst1_real (hc : fn.complex = false) (hacc : Accessible fn a m) (hoff : off + w ≤ a.n) (r : Reg K)
    (hr : ∀ i, i < w → r i = realResult fn a m (off + i)) :
    vst1 w (written fn a m off) (a.y + off) r = .ok (written fn a m (off + w)) := by
  have hz : fn.size = 1 := by simp [Fn.size, hc]
  have := vst1_written hacc hoff r (by
    intro i hi
    rw [hz] at hi ⊢
    rw [one_mul] at hi ⊢
    rw [hr i hi]
    simp [value, hc])
  rwa [hz, one_mul, one_mul] at this

end Real

/-! ### Complex elements -/

section Complex
variable {fn : Fn} {a : Args K} {m : Memory K} {off w : Nat}

theorem vld1_complex (hc : fn.complex = true) (hacc : Accessible fn a m) {p k : Nat} (hp : p ∈ vectors fn a)
    (hoff : 2 * off + k ≤ 2 * a.n) :
    vld1 k (written fn a m off) (p + 2 * off) = .ok (fun i => val (written fn a m off) (p + 2 * off + i)) := by
  have hz : fn.size = 2 := by simp [Fn.size, hc]
  have := written_accessible hacc hp (off := off) (k := k) (by rw [hz]; omega)
  rw [hz] at this
  unfold vld1
  rw [if_pos this]

theorem vld2_complex (hc : fn.complex = true) (hacc : Accessible fn a m) {p : Nat} (hp : p ∈ vectors fn a)
    (hoff : off + w ≤ a.n) :
    vld2 w (written fn a m off) (p + 2 * off) =
      .ok (fun i => val (written fn a m off) (p + 2 * off + 2 * i), fun i => val (written fn a m off) (p + 2 * off + 2 * i + 1)) := by
  have hz : fn.size = 2 := by simp [Fn.size, hc]
  have := written_accessible hacc hp (off := off) (k := 2 * w) (by rw [hz]; omega)
  rw [hz] at this
  unfold vld2
  rw [if_pos this]

theorem vld2Lane_complex (hc : fn.complex = true) (hacc : Accessible fn a m) {p : Nat} (hp : p ∈ vectors fn a)
    (hoff : off + 1 ≤ a.n) (g : Reg K × Reg K) :
    vld2Lane (written fn a m off) (p + 2 * off) g =
      .ok (fun i => if i = 0 then val (written fn a m off) (p + 2 * off) else g.1 i,
        fun i => if i = 0 then val (written fn a m off) (p + 2 * off + 1) else g.2 i) := by
  have hz : fn.size = 2 := by simp [Fn.size, hc]
  have := written_accessible hacc hp (off := off) (k := 2) (by rw [hz]; omega)
  rw [hz] at this
  unfold vld2Lane
  rw [if_pos this]

theorem read_complex (hc : fn.complex = true) (hs : Separate fn a) {p i : Nat} (hp : p ∈ vectors fn a)
    (hi : 2 * off + i < 2 * a.n) : val (written fn a m off) (p + 2 * off + i) = val m (p + 2 * off + i) := by
  have hz : fn.size = 2 := by simp [Fn.size, hc]
  have := written_read (m := m) hs hp (off := off) (i := i) (by rw [hz]; omega)
  rwa [hz] at this

theorem read_re (hc : fn.complex = true) (hs : Separate fn a) {p j : Nat} (hp : p ∈ vectors fn a) (hi : off + j < a.n) :
    val (written fn a m off) (p + 2 * off + 2 * j) = (complexAt m p (off + j)).re := by
  rw [read_complex hc hs hp (by omega)]
  simp only [complexAt, Nat.mul_add, Nat.add_assoc]

theorem read_im (hc : fn.complex = true) (hs : Separate fn a) {p j : Nat} (hp : p ∈ vectors fn a) (hi : off + j < a.n) :
    val (written fn a m off) (p + 2 * off + 2 * j + 1) = (complexAt m p (off + j)).im := by
  rw [Nat.add_assoc, read_complex hc hs hp (by omega)]
  simp only [complexAt, Nat.mul_add, Nat.add_assoc]

theorem read_re0 (hc : fn.complex = true) (hs : Separate fn a) {p : Nat} (hp : p ∈ vectors fn a) (hi : off < a.n) :
    val (written fn a m off) (p + 2 * off) = (complexAt m p off).re := read_re (j := 0) hc hs hp hi

theorem read_im0 (hc : fn.complex = true) (hs : Separate fn a) {p : Nat} (hp : p ∈ vectors fn a) (hi : off < a.n) :
    val (written fn a m off) (p + 2 * off + 1) = (complexAt m p off).im := read_im (j := 0) hc hs hp hi

theorem vst1_complex (hc : fn.complex = true) (hacc : Accessible fn a m) (hoff : off + w ≤ a.n) (r : Reg K)
    (hr : ∀ j, j < w → r (2 * j) = (complexResult fn a m (off + j)).re ∧ r (2 * j + 1) = (complexResult fn a m (off + j)).im) :
    vst1 (2 * w) (written fn a m off) (a.y + 2 * off) r = .ok (written fn a m (off + w)) := by
  have hz : fn.size = 2 := by simp [Fn.size, hc]
  have := vst1_written hacc hoff r (by
    intro i hi
    rw [hz] at hi ⊢
    have h := hr (i / 2) (by omega)
    have hdiv : (2 * off + i) / 2 = off + i / 2 := by omega
    simp only [value, hc, if_true, hdiv]
    by_cases he : i % 2 = 0
    · rw [if_pos (by omega), ← h.1]
      congr 1
      omega
    · rw [if_neg (by omega), ← h.2]
      congr 1
      omega)
  rwa [hz] at this

theorem vst2_complex (hc : fn.complex = true) (hacc : Accessible fn a m) (hoff : off + w ≤ a.n) (r : Reg K × Reg K)
    (hr : ∀ j, j < w → r.1 j = (complexResult fn a m (off + j)).re ∧ r.2 j = (complexResult fn a m (off + j)).im) :
    vst2 w (written fn a m off) (a.y + 2 * off) r = .ok (written fn a m (off + w)) := by
  have h := vst1_complex hc hacc hoff (fun i => if i % 2 = 0 then r.1 (i / 2) else r.2 (i / 2)) (by
    intro j hj
    have := hr j hj
    refine ⟨?_, ?_⟩
    · rw [← this.1]
      show (if 2 * j % 2 = 0 then r.1 (2 * j / 2) else r.2 (2 * j / 2)) = _
      rw [if_pos (by omega), show 2 * j / 2 = j by omega]
    · rw [← this.2]
      show (if (2 * j + 1) % 2 = 0 then r.1 ((2 * j + 1) / 2) else r.2 ((2 * j + 1) / 2)) = _
      rw [if_neg (by omega), show (2 * j + 1) / 2 = j by omega])
  rw [← h]
  rfl

end Complex

/-! ### Control flow -/

theorem loop_at (w : Nat) (hw : 0 < w) (body : Step K) (P : Nat → Ptrs) (R : Nat → Memory K)
    (N : Nat) (hbody : ∀ off, off + w ≤ N → body (P off) (R off) = .ok (P (off + w), R (off + w))) :
    ∀ cnt off, off + cnt = N → ∃ off' cnt', off' + cnt' = N ∧ cnt' < w ∧
      loop w body cnt (P off) (R off) = .ok (cnt', P off', R off') := by
  intro cnt
  induction cnt using Nat.strongRecOn with
  | ind cnt ih =>
    intro off hN
    by_cases hc : w ≤ cnt
    · obtain ⟨off', cnt', h1, h3, h4⟩ := ih (cnt - w) (by omega) (off + w) (by omega)
      refine ⟨off', cnt', h1, h3, ?_⟩
      rw [loop, dif_pos ⟨hw, hc⟩, hbody off (by omega)]
      exact h4
    · refine ⟨off, cnt, hN, by omega, ?_⟩
      rw [loop, dif_neg (by omega)]

theorem run4_at (four two one : Step K) (P : Nat → Ptrs) (R : Nat → Memory K) (N : Nat)
    (h4 : ∀ off, off + 4 ≤ N → four (P off) (R off) = .ok (P (off + 4), R (off + 4)))
    (h2 : ∀ off, off + 2 ≤ N → two (P off) (R off) = .ok (P (off + 2), R (off + 2)))
    (h1 : ∀ off, off + 1 ≤ N → one (P off) (R off) = .ok (P (off + 1), R (off + 1))) :
    run4 four two one N (P 0) (R 0) = .ok (.noError, R N) := by
  obtain ⟨off, cnt, hN, hc, hl⟩ := loop_at 4 (by omega) four P R N h4 N 0 (by omega)
  unfold run4
  rw [hl, Outcome.ok_bind]
  by_cases c0 : 0 < cnt
  · dsimp only
    rw [if_pos c0]
    by_cases c2 : 2 ≤ cnt
    · rw [if_pos c2, h2 off (by omega)]
      simp only [Outcome.ok_bind, Outcome.pure_eq]
      by_cases c3 : 0 < cnt - 2
      · rw [if_pos c3, h1 (off + 2) (by omega), Outcome.ok_bind]
        have : off + 2 + 1 = N := by omega
        rw [this]
      · rw [if_neg c3]
        have : off + 2 = N := by omega
        rw [this]
    · rw [if_neg c2]
      simp only [Outcome.pure_eq, Outcome.ok_bind]
      rw [if_pos c0, h1 off (by omega), Outcome.ok_bind]
      have : off + 1 = N := by omega
      rw [this]
  · dsimp only
    rw [if_neg c0]
    have : off = N := by omega
    rw [this]
    rfl

theorem run2_at (two one : Step K) (P : Nat → Ptrs) (R : Nat → Memory K) (N : Nat)
    (h2 : ∀ off, off + 2 ≤ N → two (P off) (R off) = .ok (P (off + 2), R (off + 2)))
    (h1 : ∀ off, off + 1 ≤ N → one (P off) (R off) = .ok (P (off + 1), R (off + 1))) :
    run2 two one N (P 0) (R 0) = .ok (.noError, R N) := by
  obtain ⟨off, cnt, hN, hc, hl⟩ := loop_at 2 (by omega) two P R N h2 N 0 (by omega)
  unfold run2
  rw [hl, Outcome.ok_bind]
  by_cases c0 : 0 < cnt
  · dsimp only
    rw [if_pos c0, h1 off (by omega), Outcome.ok_bind]
    have : off + 1 = N := by omega
    rw [this]
    rfl
  · dsimp only
    rw [if_neg c0]
    have : off = N := by omega
    rw [this]
    rfl

/-! ### Alignment -/

theorem checked_ok (enabled : Bool) (size alignment : Nat) (ptrs : List Nat) (m : Memory K)
    (body : Outcome (Err × Memory K)) (h : enabled = true → ∀ p ∈ ptrs, check size p alignment = true) :
    checked enabled size alignment ptrs m body = body := by
  unfold checked
  rw [if_neg]
  rintro ⟨he, ha⟩
  obtain ⟨p, hp, hc⟩ := List.any_eq_true.1 ha
  rw [h he p hp] at hc
  simp at hc

theorem checked_rejects (size alignment : Nat) (ptrs : List Nat) (m : Memory K) (body : Outcome (Err × Memory K)) (p : Nat)
    (hp : p ∈ ptrs) (h : check size p alignment = false) :
    checked true size alignment ptrs m body = .ok (.alignmentError, m) := by
  unfold checked
  rw [if_pos ⟨rfl, List.any_eq_true.2 ⟨p, hp, by simp [h]⟩⟩]

theorem Cx.add_re (x y : Cx K) : (x + y).re = x.re + y.re := rfl

theorem Cx.add_im (x y : Cx K) : (x + y).im = x.im + y.im := rfl

theorem Cx.mul_re (x y : Cx K) : (x * y).re = x.re * y.re - x.im * y.im := rfl

theorem Cx.mul_im (x y : Cx K) : (x * y).im = x.re * y.im + x.im * y.re := rfl

end Visr.Neon
