import Verif.Rotation.Model
import Mathlib.Analysis.Real.Pi.Bounds
import Mathlib.Tactic.LinearCombination
import Mathlib.Tactic.Linarith
import Mathlib.Tactic.FieldSimp
import Mathlib.Tactic.NormNum
import Mathlib.Tactic.Positivity

/-!
# C43: rotations preserve lengths and compose
-/

namespace Visr.Rotation

open Visr Real

section Algebra
variable {K : Type*} [CommRing K]

/-! ### Any commutative ring of coordinates -/

/-- **C43 (length)**.  Rotating by a unit quaternion leaves the squared length of
every position, and the inner product of every two positions, as it was. -/
theorem rotate_preserves_dot (q : Quat K) (hq : q.normSquare = 1) (v u : Vec K) :
    (v.rotate q).dot (u.rotate q) = v.dot u := by
  have key : (v.rotate q).dot (u.rotate q) = q.normSquare ^ 2 * v.dot u := by
    simp only [Vec.rotate, Quat.mul, Quat.conj, Vec.dot, Quat.normSquare]
    ring
  rw [key, hq]; ring

theorem rotate_preserves_length (q : Quat K) (hq : q.normSquare = 1) (v : Vec K) :
    (v.rotate q).normSquare = v.normSquare :=
  rotate_preserves_dot q hq v v

/-- The length of a position rotated by *any* quaternion is scaled by the fourth
power of the norm: `rotate` does not normalise. -/
theorem rotate_scales (q : Quat K) (v : Vec K) :
    (v.rotate q).normSquare = q.normSquare ^ 2 * v.normSquare := by
  simp only [Vec.rotate, Quat.mul, Quat.conj, Vec.normSquare, Quat.normSquare]
  ring

example : (⟨3 / 5, 0, 4 / 5, 0⟩ : Quat ℚ).normSquare = 1 ∧
    (⟨1, 2, 3⟩ : Vec ℚ).rotate ⟨3 / 5, 0, 4 / 5, 0⟩ = ⟨13 / 5, 2, -9 / 5⟩ := by
  constructor
  · norm_num [Quat.normSquare]
  · ext <;> norm_num [Vec.rotate, Quat.mul, Quat.conj]

/-- **C43 (composition)**.  Rotating by `q1` and then by `q2` is rotating by the
product `q2 * q1`. -/
theorem rotate_compose (q1 q2 : Quat K) (v : Vec K) :
    (v.rotate q1).rotate q2 = v.rotate (q2.mul q1) := by
  simp only [Vec.rotate, Quat.mul, Quat.conj]
  ext <;> ring

/-- Products of quaternions are associative, have the default quaternion as
neutral element, and multiply the squared norms; in particular, unit quaternions
stay unit under `rotate`. -/
theorem quat_monoid (p q r : Quat K) :
    (p.mul q).mul r = p.mul (q.mul r) ∧ Quat.one.mul p = p ∧ p.mul Quat.one = p ∧
      (p.mul q).normSquare = p.normSquare * q.normSquare := by
  refine ⟨?_, ?_, ?_, ?_⟩
  · simp only [Quat.mul]; ext <;> ring
  · simp only [Quat.mul, Quat.one]; ext <;> ring
  · simp only [Quat.mul, Quat.one]; ext <;> ring
  · simp only [Quat.mul, Quat.normSquare]; ring

/-- Composition is not commutative, so the order in `rotate_compose` matters. -/
theorem order_matters : ∃ (q1 q2 : Quat ℚ) (v : Vec ℚ),
    q1.normSquare = 1 ∧ q2.normSquare = 1 ∧ (v.rotate q1).rotate q2 ≠ v.rotate (q1.mul q2) := by
  refine ⟨⟨0, 1, 0, 0⟩, ⟨3 / 5, 0, 4 / 5, 0⟩, ⟨1, 2, 3⟩, ?_, ?_, ?_⟩
  · norm_num [Quat.normSquare]
  · norm_num [Quat.normSquare]
  · intro h
    have := congrArg Vec.x h
    norm_num [Vec.rotate, Quat.mul, Quat.conj] at this

/-- **C43 (inverse)**.  Rotating by the conjugate of a unit quaternion undoes the
rotation, in either order. -/
theorem rotate_conj_undoes (q : Quat K) (hq : q.normSquare = 1) (v : Vec K) :
    (v.rotate q).rotate q.conj = v ∧ (v.rotate q.conj).rotate q = v := by
  have key : ∀ p : Quat K, p.normSquare = q.normSquare → p.x * p.x = q.x * q.x →
      p.conj.mul p = ⟨q.normSquare, 0, 0, 0⟩ := by
    intro p hp _
    rw [← hp]
    simp only [Quat.mul, Quat.conj, Quat.normSquare]
    ext <;> ring
  have one : v.rotate (⟨1, 0, 0, 0⟩ : Quat K) = v := by
    simp only [Vec.rotate, Quat.mul, Quat.conj]
    ext <;> ring
  constructor
  · rw [rotate_compose, key q rfl rfl, hq, one]
  · rw [rotate_compose]
    have := key q.conj (by simp only [Quat.conj, Quat.normSquare]; ring)
      (by simp only [Quat.conj]; ring)
    have hcc : q.conj.conj = q := by simp [Quat.conj]
    rw [hcc] at this
    rw [this, hq, one]

/-- Rotations about the origin fix it, and are linear. -/
theorem rotate_linear (q : Quat K) (a : K) (v u : Vec K) :
    ((v.scale a).add u).rotate q = ((v.rotate q).scale a).add (u.rotate q) := by
  simp only [Vec.rotate, Quat.mul, Quat.conj, Vec.add, Vec.scale]
  ext <;> ring

/-- The boolean "normalise" argument of the constructor has no effect: the result
need not be a unit quaternion. -/
theorem constructor_does_not_normalise : ∃ w x y z : ℚ,
    (Quat.mk' w x y z true).normSquare ≠ 1 := by
  exact ⟨2, 0, 0, 0, by norm_num [Quat.mk', Quat.normSquare]⟩

end Algebra

/-! ### Real coordinates -/

theorem norm_preserved (q : Quat ℝ) (hq : q.normSquare = 1) (v : Vec ℝ) :
    (v.rotate q).norm = v.norm := by
  rw [Vec.norm, Vec.norm, rotate_preserves_length q hq]

theorem Quat.normSquare_nonneg (q : Quat ℝ) : 0 ≤ q.normSquare := by
  simp only [Quat.normSquare]
  linarith [mul_self_nonneg q.w, mul_self_nonneg q.x, mul_self_nonneg q.y, mul_self_nonneg q.z]

theorem Vec.normSquare_nonneg (q : Vec ℝ) : 0 ≤ q.normSquare := by
  simp only [Vec.normSquare]
  linarith [mul_self_nonneg q.x, mul_self_nonneg q.y, mul_self_nonneg q.z]

theorem Vec.norm_sq (v : Vec ℝ) : v.norm * v.norm = v.normSquare :=
  mul_self_sqrt v.normSquare_nonneg

theorem Quat.norm_sq (v : Quat ℝ) : v.norm * v.norm = v.normSquare :=
  mul_self_sqrt v.normSquare_nonneg

/-- Normalising a position throws exactly when it is shorter than the machine
epsilon, and otherwise gives the position of length one in the same direction. -/
theorem vec_normalise (eps : ℝ) (heps : 0 < eps) (v : Vec ℝ) :
    (v.norm < eps → v.normalise eps = .throw .runtimeError) ∧
      (¬ v.norm < eps → ∃ n, v.normalise eps = .ok (some n) ∧ n.normSquare = 1 ∧
        v = n.scale v.norm) := by
  constructor
  · intro h; simp [Vec.normalise, h]
  · intro h
    have hpos : 0 < v.norm := lt_of_lt_of_le heps (not_lt.mp h)
    refine ⟨v.scale (1 / v.norm), by simp [Vec.normalise, h, fdiv, hpos.ne'], ?_, ?_⟩
    · have : (v.scale (1 / v.norm)).normSquare = v.normSquare / (v.norm * v.norm) := by
        simp only [Vec.scale, Vec.normSquare]; field_simp
      rw [this, v.norm_sq, div_self]
      rw [← v.norm_sq]; positivity
    · simp only [Vec.scale]
      ext <;> field_simp

/-- Normalising a quaternion throws exactly when its norm is below the machine
epsilon, and otherwise gives the unit quaternion in the same direction; with
`adjustSign` the real part of the result is never negative, and the result stands
for the same rotation. -/
theorem quat_normalise (eps : ℝ) (heps : 0 < eps) (q : Quat ℝ) (adj : Bool) :
    (q.norm < eps → q.normalise eps adj = .throw .runtimeError) ∧
      (¬ q.norm < eps → ∃ n, q.normalise eps adj = .ok (some n) ∧ n.normSquare = 1 ∧
        (q = n.scale q.norm ∨ adj = true ∧ q = n.scale (-q.norm)) ∧
        (adj = true → 0 ≤ n.w)) := by
  constructor
  · intro h; simp [Quat.normalise, h]
  · intro h
    have hpos : 0 < q.norm := lt_of_lt_of_le heps (not_lt.mp h)
    by_cases hs : adj = true ∧ q.w < 0
    · refine ⟨q.scale (-1 / q.norm), by simp [Quat.normalise, h, fdiv, hpos.ne', hs.1, hs.2],
        ?_, Or.inr ⟨hs.1, ?_⟩, fun _ => ?_⟩
      · have : (q.scale (-1 / q.norm)).normSquare = q.normSquare / (q.norm * q.norm) := by
          simp only [Quat.scale, Quat.normSquare]; field_simp
        rw [this, q.norm_sq, div_self]
        rw [← q.norm_sq]; positivity
      · simp only [Quat.scale]
        ext <;> field_simp
      · simp only [Quat.scale]
        rw [div_mul_eq_mul_div]
        exact div_nonneg (by linarith [hs.2]) hpos.le
    · refine ⟨q.scale (1 / q.norm), ?_, ?_, Or.inl ?_, ?_⟩
      · have : (adj && decide (q.w < 0)) = false := by
          cases adj <;> simp_all
        simp [Quat.normalise, h, fdiv, hpos.ne', this]
      · have : (q.scale (1 / q.norm)).normSquare = q.normSquare / (q.norm * q.norm) := by
          simp only [Quat.scale, Quat.normSquare]; field_simp
        rw [this, q.norm_sq, div_self]
        rw [← q.norm_sq]; positivity
      · simp only [Quat.scale]
        ext <;> field_simp
      · intro ha
        have hw : 0 ≤ q.w := by
          by_contra hc; exact hs ⟨ha, not_le.mp hc⟩
        simp only [Quat.scale]
        positivity

/-! ### Axis and angle -/

/-- Cross product, for the specification. -/
def cross (n v : Vec ℝ) : Vec ℝ :=
  ⟨n.y * v.z - n.z * v.y, n.z * v.x - n.x * v.z, n.x * v.y - n.y * v.x⟩

/-- Rodrigues' formula: the point obtained by turning `v` about the unit axis `n`
by the angle `a`, counter-clockwise when looking against the axis. -/
noncomputable def turn (n : Vec ℝ) (a : ℝ) (v : Vec ℝ) : Vec ℝ :=
  ((v.scale (cos a)).add ((cross n v).scale (sin a))).add (n.scale ((1 - cos a) * n.dot v))

/-- **C43 (axis and angle)**.  For every rotation vector that is not shorter than
the machine epsilon, `fromRotationVector` gives a unit quaternion whose rotation
turns each position about that axis by that angle. -/
theorem rotation_vector_turns (eps : ℝ) (heps : 0 < eps) (axis : Vec ℝ)
    (h : ¬ axis.norm < eps) (a : ℝ) :
    ∃ (q : Quat ℝ) (n : Vec ℝ), Quat.fromRotationVector eps axis a = .ok (some q) ∧
      q.normSquare = 1 ∧ n.normSquare = 1 ∧ axis = n.scale axis.norm ∧
      ∀ v : Vec ℝ, v.rotate q = turn n a v := by
  obtain ⟨n, hn, hn1, hn2⟩ := (vec_normalise eps heps axis).2 h
  refine ⟨⟨cos (1 / 2 * a), sin (1 / 2 * a) * n.x, sin (1 / 2 * a) * n.y, sin (1 / 2 * a) * n.z⟩,
    n, by simp [Quat.fromRotationVector, hn], ?_, hn1, hn2, ?_⟩
  · have h2 := sin_sq_add_cos_sq (1 / 2 * a)
    simp only [Quat.normSquare]
    simp only [Vec.normSquare] at hn1
    linear_combination (sin (1 / 2 * a)) ^ 2 * hn1 + h2
  · intro v
    have h2 := sin_sq_add_cos_sq (1 / 2 * a)
    have hc : cos a = cos (1 / 2 * a) ^ 2 - sin (1 / 2 * a) ^ 2 := by
      have := cos_two_mul (1 / 2 * a)
      rw [show 2 * (1 / 2 * a) = a by ring] at this
      linear_combination this + h2
    have hs : sin a = 2 * sin (1 / 2 * a) * cos (1 / 2 * a) := by
      have := sin_two_mul (1 / 2 * a)
      rwa [show 2 * (1 / 2 * a) = a by ring] at this
    simp only [turn, hc, hs, Vec.rotate, Quat.mul, Quat.conj, Vec.add, Vec.scale, cross, Vec.dot]
    simp only [Vec.normSquare] at hn1
    generalize sin (1 / 2 * a) = s at *
    generalize cos (1 / 2 * a) = c at *
    ext
    · linear_combination (-s ^ 2 * v.x) * hn1 + (n.x * (n.x * v.x + n.y * v.y + n.z * v.z)) * h2
    · linear_combination (-s ^ 2 * v.y) * hn1 + (n.y * (n.x * v.x + n.y * v.y + n.z * v.z)) * h2
    · linear_combination (-s ^ 2 * v.z) * hn1 + (n.z * (n.x * v.x + n.y * v.y + n.z * v.z)) * h2

example : ∃ q : Quat ℝ, Quat.fromRotationVector (1 / 1000) ⟨0, 0, 2⟩ (π / 2) = .ok (some q) ∧
    (⟨1, 0, 0⟩ : Vec ℝ).rotate q = ⟨0, 1, 0⟩ := by
  have hn : (⟨0, 0, 2⟩ : Vec ℝ).norm = 2 := by
    rw [Vec.norm, show (⟨0, 0, 2⟩ : Vec ℝ).normSquare = 2 * 2 by norm_num [Vec.normSquare]]
    exact sqrt_mul_self (by norm_num)
  obtain ⟨q, n, h1, _, _, h4, h5⟩ := rotation_vector_turns (1 / 1000) (by norm_num) ⟨0, 0, 2⟩
    (by rw [hn]; norm_num) (π / 2)
  refine ⟨q, h1, ?_⟩
  rw [hn] at h4
  have hx := congrArg Vec.x h4
  have hy := congrArg Vec.y h4
  have hz := congrArg Vec.z h4
  simp only [Vec.scale] at hx hy hz
  have hx' : n.x = 0 := by linarith
  have hy' : n.y = 0 := by linarith
  have hz' : n.z = 1 := by linarith
  rw [h5]
  simp [turn, cross, Vec.add, Vec.scale, Vec.dot, hx', hy', hz']

/-! ### Yaw, pitch and roll -/

/-- Turning about the z axis by `a`, as a matrix. -/
noncomputable def aboutZ (a : ℝ) (v : Vec ℝ) : Vec ℝ :=
  ⟨cos a * v.x - sin a * v.y, sin a * v.x + cos a * v.y, v.z⟩

/-- Turning about the y axis by `a`, as a matrix. -/
noncomputable def aboutY (a : ℝ) (v : Vec ℝ) : Vec ℝ :=
  ⟨cos a * v.x + sin a * v.z, v.y, -sin a * v.x + cos a * v.z⟩

/-- Turning about the x axis by `a`, as a matrix. -/
noncomputable def aboutX (a : ℝ) (v : Vec ℝ) : Vec ℝ :=
  ⟨v.x, cos a * v.y - sin a * v.z, sin a * v.y + cos a * v.z⟩

theorem half_angle (a : ℝ) : cos a = cos (a * (1 / 2)) ^ 2 - sin (a * (1 / 2)) ^ 2 ∧
    sin a = 2 * sin (a * (1 / 2)) * cos (a * (1 / 2)) ∧
    sin (a * (1 / 2)) ^ 2 + cos (a * (1 / 2)) ^ 2 = 1 := by
  have h2 := sin_sq_add_cos_sq (a * (1 / 2))
  refine ⟨?_, ?_, h2⟩
  · have := cos_two_mul (a * (1 / 2))
    rw [show 2 * (a * (1 / 2)) = a by ring] at this
    linear_combination this + h2
  · have := sin_two_mul (a * (1 / 2))
    rwa [show 2 * (a * (1 / 2)) = a by ring] at this

/-- **C43 (yaw, pitch, roll)**.  The quaternion made from three angles is a unit
quaternion, and rotates every position first by the roll about the x axis, then
by the pitch about the y axis, then by the yaw about the z axis. -/
theorem ypr_rotates (yaw pitch roll : ℝ) :
    (Quat.fromYPR yaw pitch roll).normSquare = 1 ∧
      ∀ v : Vec ℝ, v.rotate (Quat.fromYPR yaw pitch roll) =
        aboutZ yaw (aboutY pitch (aboutX roll v)) := by
  obtain ⟨hcy, hsy, hy⟩ := half_angle yaw
  obtain ⟨hcp, hsp, hp⟩ := half_angle pitch
  obtain ⟨hcr, hsr, hr⟩ := half_angle roll
  have hprod : Quat.fromYPR yaw pitch roll =
      ((⟨cos (yaw * (1 / 2)), 0, 0, sin (yaw * (1 / 2))⟩ : Quat ℝ).mul
        ⟨cos (pitch * (1 / 2)), 0, sin (pitch * (1 / 2)), 0⟩).mul
        ⟨cos (roll * (1 / 2)), sin (roll * (1 / 2)), 0, 0⟩ := by
    simp only [Quat.fromYPR, Quat.mul]
    ext <;> ring
  constructor
  · rw [hprod, (quat_monoid _ _ Quat.one).2.2.2, (quat_monoid _ _ Quat.one).2.2.2]
    have h1 : (⟨cos (yaw * (1 / 2)), 0, 0, sin (yaw * (1 / 2))⟩ : Quat ℝ).normSquare = 1 := by
      simp only [Quat.normSquare]; linear_combination hy
    have h2 : (⟨cos (pitch * (1 / 2)), 0, sin (pitch * (1 / 2)), 0⟩ : Quat ℝ).normSquare = 1 := by
      simp only [Quat.normSquare]; linear_combination hp
    have h3 : (⟨cos (roll * (1 / 2)), sin (roll * (1 / 2)), 0, 0⟩ : Quat ℝ).normSquare = 1 := by
      simp only [Quat.normSquare]; linear_combination hr
    rw [h1, h2, h3]; norm_num
  · intro v
    rw [hprod, ← rotate_compose, ← rotate_compose]
    have hX : v.rotate (⟨cos (roll * (1 / 2)), sin (roll * (1 / 2)), 0, 0⟩ : Quat ℝ) =
        aboutX roll v := by
      simp only [aboutX, hcr, hsr, Vec.rotate, Quat.mul, Quat.conj]
      ext
      · linear_combination v.x * hr
      · ring
      · ring
    have hY : ∀ u : Vec ℝ, u.rotate
        (⟨cos (pitch * (1 / 2)), 0, sin (pitch * (1 / 2)), 0⟩ : Quat ℝ) = aboutY pitch u := by
      intro u
      simp only [aboutY, hcp, hsp, Vec.rotate, Quat.mul, Quat.conj]
      ext
      · ring
      · linear_combination u.y * hp
      · ring
    have hZ : ∀ u : Vec ℝ, u.rotate
        (⟨cos (yaw * (1 / 2)), 0, 0, sin (yaw * (1 / 2))⟩ : Quat ℝ) = aboutZ yaw u := by
      intro u
      simp only [aboutZ, hcy, hsy, Vec.rotate, Quat.mul, Quat.conj]
      ext
      · ring
      · ring
      · linear_combination u.z * hy
    rw [hX, hY, hZ]

/-- `atan2` recovers the angle of a point given in polar coordinates. -/
theorem atan2_polar (r θ : ℝ) (hr : 0 < r) (h1 : -π < θ) (h2 : θ ≤ π) :
    atan2 (r * sin θ) (r * cos θ) = θ := by
  have := Complex.arg_mul_cos_add_sin_mul_I hr (θ := θ) ⟨h1, h2⟩
  rw [atan2]
  convert this using 2
  apply Complex.ext <;> simp [Complex.cos_ofReal_re, Complex.sin_ofReal_re,
    Complex.cos_ofReal_im, Complex.sin_ofReal_im]

/-- and gives an angle with that direction for every point other than the origin. -/
theorem atan2_spec (r y x : ℝ) (hr : 0 < r) (h : x ^ 2 + y ^ 2 = r ^ 2) :
    r * cos (atan2 y x) = x ∧ r * sin (atan2 y x) = y := by
  have hn : ‖(⟨x, y⟩ : ℂ)‖ = r := by
    rw [Complex.norm_def, Complex.normSq_apply]
    rw [show x * x + y * y = r ^ 2 by linarith]
    exact sqrt_sq hr.le
  have hne : (⟨x, y⟩ : ℂ) ≠ 0 := by
    intro h0; rw [h0, norm_zero] at hn; exact hr.ne hn
  constructor
  · rw [atan2, Complex.cos_arg hne, hn]; field_simp
  · rw [atan2, Complex.sin_arg, hn]; field_simp

/-- The five numbers that `yaw`, `pitch` and `roll` look at are entries of the
rotation matrix. -/
theorem matrix_entries (q : Quat ℝ) (hq : q.normSquare = 1) :
    ((⟨1, 0, 0⟩ : Vec ℝ).rotate q).x = 1 - 2 * (q.y * q.y + q.z * q.z) ∧
    ((⟨1, 0, 0⟩ : Vec ℝ).rotate q).y = 2 * (q.w * q.z + q.x * q.y) ∧
    ((⟨1, 0, 0⟩ : Vec ℝ).rotate q).z = -(2 * (q.w * q.y - q.z * q.x)) ∧
    ((⟨0, 1, 0⟩ : Vec ℝ).rotate q).z = 2 * (q.w * q.x + q.y * q.z) ∧
    ((⟨0, 0, 1⟩ : Vec ℝ).rotate q).z = 1 - 2 * (q.x * q.x + q.y * q.y) := by
  simp only [Quat.normSquare] at hq
  simp only [Vec.rotate, Quat.mul, Quat.conj]
  refine ⟨?_, ?_, ?_, ?_, ?_⟩
  · linear_combination hq
  · ring
  · ring
  · ring
  · linear_combination hq

/-- **C43 (yaw, pitch and roll are recovered)**.  Reading the angles of a
quaternion made from a yaw and a roll in (-π, π] and a pitch strictly between
-π/2 and π/2 returns these angles. -/
theorem ypr_read_back (yaw pitch roll : ℝ) (hy1 : -π < yaw) (hy2 : yaw ≤ π)
    (hp1 : -(π / 2) < pitch) (hp2 : pitch < π / 2) (hr1 : -π < roll) (hr2 : roll ≤ π) :
    (Quat.fromYPR yaw pitch roll).yaw = yaw ∧ (Quat.fromYPR yaw pitch roll).pitch = pitch ∧
      (Quat.fromYPR yaw pitch roll).roll = roll := by
  obtain ⟨hu, hrot⟩ := ypr_rotates yaw pitch roll
  obtain ⟨e1, e2, e3, e4, e5⟩ := matrix_entries _ hu
  rw [hrot] at e1 e2 e3 e4 e5
  simp only [aboutX, aboutY, aboutZ] at e1 e2 e3 e4 e5
  have hcp : 0 < cos pitch := cos_pos_of_mem_Ioo ⟨hp1, hp2⟩
  refine ⟨?_, ?_, ?_⟩
  · rw [Quat.yaw, ← e1, ← e2]
    have := atan2_polar (cos pitch) yaw hcp hy1 hy2
    convert this using 2 <;> ring
  · have hs : 2 * ((Quat.fromYPR yaw pitch roll).w * (Quat.fromYPR yaw pitch roll).y -
        (Quat.fromYPR yaw pitch roll).z * (Quat.fromYPR yaw pitch roll).x) = sin pitch := by
      linear_combination e3
    have hlt : ¬ |sin pitch| ≥ 1 := by
      have h1 := sin_sq_add_cos_sq pitch
      rw [ge_iff_le, ← sq_le_sq₀ (by norm_num) (abs_nonneg _), sq_abs]
      nlinarith
    rw [Quat.pitch, hs]
    simp only [hlt, if_false]
    exact arcsin_sin hp1.le hp2.le
  · rw [Quat.roll, ← e4, ← e5]
    have := atan2_polar (cos pitch) roll hcp hr1 hr2
    convert this using 2 <;> ring

example : (Quat.fromYPR π 1 (-1)).yaw = π ∧ (Quat.fromYPR π 1 (-1)).roll = -1 := by
  have h3 := pi_gt_three
  obtain ⟨h1, _, h2⟩ := ypr_read_back π 1 (-1) (by linarith) le_rfl (by linarith) (by linarith)
    (by linarith) (by linarith)
  exact ⟨h1, h2⟩

/-- Two unit quaternions with the same products of components differ at most in
sign. -/
theorem same_products (p q : Quat ℝ) (hq : q.normSquare = 1)
    (hww : p.w * p.w = q.w * q.w) (hxx : p.x * p.x = q.x * q.x) (hyy : p.y * p.y = q.y * q.y)
    (hzz : p.z * p.z = q.z * q.z) (hwx : p.w * p.x = q.w * q.x) (hwy : p.w * p.y = q.w * q.y)
    (hwz : p.w * p.z = q.w * q.z) (hxy : p.x * p.y = q.x * q.y) (hxz : p.x * p.z = q.x * q.z)
    (hyz : p.y * p.z = q.y * q.z) : p = q ∨ p = q.scale (-1) := by
  simp only [Quat.normSquare] at hq
  have hp : p.w * p.w + p.x * p.x + p.y * p.y + p.z * p.z = 1 := by
    rw [hww, hxx, hyy, hzz, hq]
  have hd : (p.dot q) ^ 2 = 1 := by
    simp only [Quat.dot]
    have : (p.w * q.w + p.x * q.x + p.y * q.y + p.z * q.z) ^ 2 =
        (q.w * q.w + q.x * q.x + q.y * q.y + q.z * q.z) ^ 2 := by
      linear_combination q.w * q.w * hww + q.x * q.x * hxx + q.y * q.y * hyy + q.z * q.z * hzz +
        2 * (q.w * q.x) * hwx + 2 * (q.w * q.y) * hwy + 2 * (q.w * q.z) * hwz +
        2 * (q.x * q.y) * hxy + 2 * (q.x * q.z) * hxz + 2 * (q.y * q.z) * hyz
    rw [this, hq]; norm_num
  have hcase : p.dot q = 1 ∨ p.dot q = -1 := by
    have : (p.dot q - 1) * (p.dot q + 1) = 0 := by linear_combination hd
    rcases mul_eq_zero.mp this with h | h
    · left; linarith
    · right; linarith
  simp only [Quat.dot] at hcase
  rcases hcase with h | h
  · left
    have hs : (p.w - q.w) ^ 2 + (p.x - q.x) ^ 2 + (p.y - q.y) ^ 2 + (p.z - q.z) ^ 2 = 0 := by
      linear_combination hp + hq - 2 * h
    have a1 := sq_nonneg (p.w - q.w)
    have a2 := sq_nonneg (p.x - q.x)
    have a3 := sq_nonneg (p.y - q.y)
    have a4 := sq_nonneg (p.z - q.z)
    ext
    · exact sub_eq_zero.mp (pow_eq_zero_iff (two_ne_zero) |>.mp (by linarith))
    · exact sub_eq_zero.mp (pow_eq_zero_iff (two_ne_zero) |>.mp (by linarith))
    · exact sub_eq_zero.mp (pow_eq_zero_iff (two_ne_zero) |>.mp (by linarith))
    · exact sub_eq_zero.mp (pow_eq_zero_iff (two_ne_zero) |>.mp (by linarith))
  · right
    have hs : (p.w + q.w) ^ 2 + (p.x + q.x) ^ 2 + (p.y + q.y) ^ 2 + (p.z + q.z) ^ 2 = 0 := by
      linear_combination hp + hq + 2 * h
    have a1 := sq_nonneg (p.w + q.w)
    have a2 := sq_nonneg (p.x + q.x)
    have a3 := sq_nonneg (p.y + q.y)
    have a4 := sq_nonneg (p.z + q.z)
    have b : ∀ a : ℝ, a ^ 2 = 0 → a = 0 := fun a h => (pow_eq_zero_iff (two_ne_zero)).mp h
    simp only [Quat.scale]
    ext
    · linarith [b (p.w + q.w) (by linarith)]
    · linarith [b (p.x + q.x) (by linarith)]
    · linarith [b (p.y + q.y) (by linarith)]
    · linarith [b (p.z + q.z) (by linarith)]

/-- The remaining four entries of the rotation matrix of a unit quaternion follow
from the five that the angles look at (cofactors of an orthogonal matrix). -/
theorem other_entries (q : Quat ℝ) (hq : q.normSquare = 1) (a b c d s : ℝ)
    (ha : 1 - 2 * (q.y * q.y + q.z * q.z) = a) (hb : 2 * (q.w * q.z + q.x * q.y) = b)
    (hc : 1 - 2 * (q.x * q.x + q.y * q.y) = c) (hd : 2 * (q.w * q.x + q.y * q.z) = d)
    (hs : 2 * (q.w * q.y - q.z * q.x) = s) :
    (q.w ^ 2 - q.x ^ 2 + q.y ^ 2 - q.z ^ 2) * (1 - s ^ 2) = a * c + s * b * d ∧
    2 * (q.x * q.z + q.w * q.y) = b * d + (q.w ^ 2 - q.x ^ 2 + q.y ^ 2 - q.z ^ 2) * s ∧
    2 * (q.x * q.y - q.w * q.z) * (1 - s ^ 2) = s * a * d - b * c ∧
    2 * (q.y * q.z - q.w * q.x) = -a * d - 2 * (q.x * q.y - q.w * q.z) * s := by
  obtain ⟨w, x, y, z⟩ := q
  simp only [Quat.normSquare] at *
  have hN : w ^ 2 + x ^ 2 + y ^ 2 + z ^ 2 = 1 := by linear_combination hq
  have ha' : a = w ^ 2 + x ^ 2 - y ^ 2 - z ^ 2 := by linear_combination -ha - hN
  have hc' : c = w ^ 2 - x ^ 2 - y ^ 2 + z ^ 2 := by linear_combination -hc - hN
  rw [ha', hc', ← hb, ← hd, ← hs]
  clear ha hb hc hd hs ha' hc' hq
  have h1 : (1 : ℝ) = (w ^ 2 + x ^ 2 + y ^ 2 + z ^ 2) ^ 2 := by rw [hN]; norm_num
  refine ⟨?_, ?_, ?_, ?_⟩
  · rw [h1]
    linear_combination ((w ^ 2 + x ^ 2 - y ^ 2 - z ^ 2) * (w ^ 2 - x ^ 2 - y ^ 2 + z ^ 2)) * hN
  · linear_combination (-(2 * (x * z + w * y))) * hN
  · rw [h1]
    linear_combination (-(2 * (w * z + x * y)) * (w ^ 2 - x ^ 2 - y ^ 2 + z ^ 2)) * hN
  · linear_combination (-(2 * (y * z - w * x))) * hN

/-- **C43 (every orientation is described by its angles)**.  For every unit
quaternion away from the poles, the quaternion made from its yaw, pitch and roll
is the quaternion itself or its negative, which rotates everything the same way. -/
theorem ypr_describes (q : Quat ℝ) (hq : q.normSquare = 1)
    (hpole : |2 * (q.w * q.y - q.z * q.x)| < 1) :
    (Quat.fromYPR q.yaw q.pitch q.roll = q ∨ Quat.fromYPR q.yaw q.pitch q.roll = q.scale (-1)) ∧
      ∀ v : Vec ℝ, v.rotate (Quat.fromYPR q.yaw q.pitch q.roll) = v.rotate q := by
  have hmain : Quat.fromYPR q.yaw q.pitch q.roll = q ∨
      Quat.fromYPR q.yaw q.pitch q.roll = q.scale (-1) := by
    set p := Quat.fromYPR q.yaw q.pitch q.roll with hp
    obtain ⟨hu, hrot⟩ := ypr_rotates q.yaw q.pitch q.roll
    rw [← hp] at hu hrot
    obtain ⟨e1, e2, e3, e4, e5⟩ := matrix_entries p hu
    rw [hrot] at e1 e2 e3 e4 e5
    simp only [aboutX, aboutY, aboutZ] at e1 e2 e3 e4 e5
    have hq' := hq
    have hu' := hu
    simp only [Quat.normSquare] at hq' hu'
    set s := 2 * (q.w * q.y - q.z * q.x) with hs
    have hsin : sin q.pitch = s := by
      have : q.pitch = arcsin s := by
        rw [Quat.pitch]
        simp only [← hs, ge_iff_le, not_le.mpr hpole, if_false]
      rw [this]
      exact sin_arcsin (by linarith [abs_lt.mp hpole]) (by linarith [abs_lt.mp hpole])
    have hcpos : 0 < cos q.pitch := by
      have : q.pitch = arcsin s := by
        rw [Quat.pitch]
        simp only [← hs, ge_iff_le, not_le.mpr hpole, if_false]
      rw [this, cos_arcsin]
      apply sqrt_pos.mpr
      have := abs_lt.mp hpole
      nlinarith
    have hc2 : cos q.pitch ^ 2 = 1 - s ^ 2 := by
      have := sin_sq_add_cos_sq q.pitch
      rw [hsin] at this; linarith
    obtain ⟨y1, y2⟩ := atan2_spec (cos q.pitch) (2 * (q.w * q.z + q.x * q.y))
      (1 - 2 * (q.y * q.y + q.z * q.z)) hcpos (by
        rw [hc2, hs]
        linear_combination (4 * (q.y ^ 2 + q.z ^ 2)) * hq')
    obtain ⟨r1, r2⟩ := atan2_spec (cos q.pitch) (2 * (q.w * q.x + q.y * q.z))
      (1 - 2 * (q.x * q.x + q.y * q.y)) hcpos (by
        rw [hc2, hs]
        linear_combination (4 * (q.x ^ 2 + q.y ^ 2)) * hq')
    rw [← Quat.yaw] at y1 y2
    rw [← Quat.roll] at r1 r2
    -- the five entries of p and q agree
    have f1 : p.y * p.y + p.z * p.z = q.y * q.y + q.z * q.z := by
      linear_combination -(1 / 2 : ℝ) * y1 - (1 / 2 : ℝ) * (-1) * e1
    have f2 : p.w * p.z + p.x * p.y = q.w * q.z + q.x * q.y := by
      linear_combination (1 / 2 : ℝ) * y2 - (1 / 2 : ℝ) * e2
    have f3 : p.w * p.y - p.z * p.x = q.w * q.y - q.z * q.x := by
      linear_combination (1 / 2 : ℝ) * e3 + (1 / 2 : ℝ) * hsin + (1 / 2 : ℝ) * hs
    have f4 : p.w * p.x + p.y * p.z = q.w * q.x + q.y * q.z := by
      linear_combination (1 / 2 : ℝ) * r2 - (1 / 2 : ℝ) * e4
    have f5 : p.x * p.x + p.y * p.y = q.x * q.x + q.y * q.y := by
      linear_combination (1 / 2 : ℝ) * e5 - (1 / 2 : ℝ) * r1
    obtain ⟨g1, g2, g3, g4⟩ := other_entries p hu _ _ _ _ _ rfl rfl rfl rfl rfl
    obtain ⟨k1, k2, k3, k4⟩ := other_entries q hq _ _ _ _ _ rfl rfl rfl rfl rfl
    rw [f1, f2, f3, f4, f5, ← hs] at g1
    rw [f2, f3, f4, ← hs] at g2
    rw [f1, f2, f3, f4, f5, ← hs] at g3
    rw [f1, f3, f4, ← hs] at g4
    rw [← hs] at k1 k2 k3 k4
    have hne : (1 - s ^ 2) ≠ 0 := by rw [← hc2]; positivity
    have m1 : p.w ^ 2 - p.x ^ 2 + p.y ^ 2 - p.z ^ 2 = q.w ^ 2 - q.x ^ 2 + q.y ^ 2 - q.z ^ 2 :=
      mul_right_cancel₀ hne (g1.trans k1.symm)
    have m2 : 2 * (p.x * p.z + p.w * p.y) = 2 * (q.x * q.z + q.w * q.y) := by
      rw [g2, k2, m1]
    have m3 : 2 * (p.x * p.y - p.w * p.z) = 2 * (q.x * q.y - q.w * q.z) :=
      mul_right_cancel₀ hne (g3.trans k3.symm)
    have m4 : 2 * (p.y * p.z - p.w * p.x) = 2 * (q.y * q.z - q.w * q.x) := by
      rw [g4, k4, m3]
    apply same_products p q hq <;> linarith
  refine ⟨hmain, ?_⟩
  intro v
  rcases hmain with h | h
  · rw [h]
  · rw [h]
    simp only [Vec.rotate, Quat.mul, Quat.conj, Quat.scale]
    ext <;> ring

end Visr.Rotation
