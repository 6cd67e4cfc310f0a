import Verif.Rotation.Props

/-!
# C43 continued: reading rotations back, interpolation, listener positions;
# C49: listener position messages
-/

namespace Visr.Rotation

open Visr Real

/-! ### Axis and angle of a quaternion -/

/-- For a unit quaternion, `rotationAngle` has the real part as cosine of its half
and the length of the vector part as sine of its half; it lies in [0, 2π]. -/
theorem rotation_angle_spec (q : Quat ℝ) (hq : q.normSquare = 1) :
    cos (q.rotationAngle / 2) = q.w ∧
      sin (q.rotationAngle / 2) = sqrt (q.x * q.x + q.y * q.y + q.z * q.z) ∧
      0 ≤ q.rotationAngle ∧ q.rotationAngle ≤ 2 * π := by
  have hnn : 0 ≤ q.x * q.x + q.y * q.y + q.z * q.z := by
    linarith [mul_self_nonneg q.x, mul_self_nonneg q.y, mul_self_nonneg q.z]
  have h := atan2_spec 1 (sqrt (q.x * q.x + q.y * q.y + q.z * q.z)) q.w one_pos (by
    rw [sq_sqrt hnn]; simp only [Quat.normSquare] at hq; linear_combination hq)
  have e : q.rotationAngle / 2 = atan2 (sqrt (q.x * q.x + q.y * q.y + q.z * q.z)) q.w := by
    rw [Quat.rotationAngle]; ring
  rw [e]
  refine ⟨by linarith [h.1], by linarith [h.2], ?_, ?_⟩
  · rw [Quat.rotationAngle]
    have : 0 ≤ atan2 (sqrt (q.x * q.x + q.y * q.y + q.z * q.z)) q.w :=
      Complex.arg_nonneg_iff.mpr (sqrt_nonneg _)
    linarith
  · rw [Quat.rotationAngle]
    have : atan2 (sqrt (q.x * q.x + q.y * q.y + q.z * q.z)) q.w ≤ π := Complex.arg_le_pi _
    linarith

/-- **C43 (axis and angle describe the rotation)**.  For a unit quaternion that is
either no rotation at all or whose vector part is longer than the machine epsilon,
making a quaternion from its rotation vector and angle gives it back exactly. -/
theorem rotation_vector_read_back (eps : ℝ) (h0 : 0 < eps) (h1 : eps ≤ 1) (q : Quat ℝ)
    (hq : q.normSquare = 1)
    (hv : eps < sqrt (q.x * q.x + q.y * q.y + q.z * q.z) ∨ (q.x = 0 ∧ q.y = 0 ∧ q.z = 0)) :
    Quat.fromRotationVector eps (q.rotationVector eps) q.rotationAngle = .ok (some q) := by
  obtain ⟨hc, hs, -, -⟩ := rotation_angle_spec q hq
  have hnn : 0 ≤ q.x * q.x + q.y * q.y + q.z * q.z := by
    linarith [mul_self_nonneg q.x, mul_self_nonneg q.y, mul_self_nonneg q.z]
  have hunit : (q.rotationVector eps).normSquare = 1 := by
    rcases hv with hv | ⟨hx, hy, hz⟩
    · have hpos : 0 < sqrt (q.x * q.x + q.y * q.y + q.z * q.z) := h0.trans hv
      have hsq := mul_self_sqrt hnn
      simp only [Quat.rotationVector, not_le.mpr hv, if_false, Vec.normSquare]
      generalize sqrt (q.x * q.x + q.y * q.y + q.z * q.z) = n at *
      field_simp
      linear_combination -hsq
    · have : ¬ eps < 0 := not_lt.mpr h0.le
      simp [Quat.rotationVector, hx, hy, hz, Vec.normSquare, h0.le]
  have hn1 : (q.rotationVector eps).norm = 1 := by rw [Vec.norm, hunit, sqrt_one]
  have hnorm : (q.rotationVector eps).normalise eps = .ok (some (q.rotationVector eps)) := by
    simp [Vec.normalise, hn1, not_lt.mpr h1, fdiv, Vec.scale]
  have e : 1 / 2 * q.rotationAngle = q.rotationAngle / 2 := by ring
  simp only [Quat.fromRotationVector, hnorm, Outcome.ok_bind, Option.map_some, e, hc, hs]
  congr 2
  rcases hv with hv | ⟨hx, hy, hz⟩
  · have hpos : 0 < sqrt (q.x * q.x + q.y * q.y + q.z * q.z) := h0.trans hv
    simp only [Quat.rotationVector, not_le.mpr hv, if_false]
    generalize sqrt (q.x * q.x + q.y * q.y + q.z * q.z) = n at *
    ext
    · rfl
    · field_simp
    · field_simp
    · field_simp
  · ext <;> simp [hx, hy, hz]

example : Quat.fromRotationVector (1 / 1000)
    ((⟨3 / 5, 0, 4 / 5, 0⟩ : Quat ℝ).rotationVector (1 / 1000))
    (⟨3 / 5, 0, 4 / 5, 0⟩ : Quat ℝ).rotationAngle = .ok (some ⟨3 / 5, 0, 4 / 5, 0⟩) := by
  refine rotation_vector_read_back _ (by norm_num) (by norm_num) _ (by norm_num [Quat.normSquare])
    (Or.inl ?_)
  rw [show ((0 : ℝ) * 0 + 4 / 5 * (4 / 5) + 0 * 0) = (4 / 5) * (4 / 5) by norm_num,
    sqrt_mul_self (by norm_num)]
  norm_num

/-! ### The angle between quaternions is wrong -/

/-- `angleNormalised` of the neutral quaternion and the turn by an angle `a`
strictly between 0 and π is *not* `a`: the formula takes the square root of the
inner product. -/
theorem angle_wrong (a : ℝ) (h0 : 0 < a) (h1 : a < π) :
    Quat.angleNormalised Quat.one ⟨cos (a / 2), sin (a / 2), 0, 0⟩ ≠ a := by
  have hc0 : 0 < cos (a / 2) := cos_pos_of_mem_Ioo ⟨by linarith, by linarith⟩
  have hc1 : cos (a / 2) < 1 := by
    have := cos_lt_cos_of_nonneg_of_le_pi (x := 0) (y := a / 2) le_rfl (by linarith) (by linarith)
    rwa [cos_zero] at this
  have hs0 : 0 ≤ sqrt (cos (a / 2)) := sqrt_nonneg _
  have hs1 : sqrt (cos (a / 2)) ≤ 1 := by
    rw [sqrt_le_left zero_le_one]; linarith
  have e : Quat.angleNormalised Quat.one ⟨cos (a / 2), sin (a / 2), 0, 0⟩ =
      2 * arccos (sqrt (cos (a / 2))) := by
    simp only [Quat.angleNormalised, Quat.dot, Quat.one, one_mul, zero_mul, add_zero]
    rw [abs_of_pos hc0, min_eq_left hs1, max_eq_left (by linarith)]
  rw [e]
  intro h
  have h2 : arccos (sqrt (cos (a / 2))) = a / 2 := by linarith
  have h3 : sqrt (cos (a / 2)) = cos (a / 2) := by
    conv_lhs => rw [← cos_arccos (by linarith) hs1, h2]
  have h4 := mul_self_sqrt hc0.le
  rw [h3] at h4
  nlinarith

/-- For instance, the angle to a turn by 120 degrees comes out as 90 degrees. -/
theorem angle_wrong_example :
    Quat.angleNormalised Quat.one ⟨1 / 2, sqrt 3 / 2, 0, 0⟩ = π / 2 := by
  have h : sqrt |(1 / 2 : ℝ)| = sqrt 2 / 2 := by
    rw [abs_of_pos (by norm_num)]
    rw [show (1 / 2 : ℝ) = 2 / 2 ^ 2 by norm_num, sqrt_div (by norm_num), sqrt_sq (by norm_num)]
  have h2 : sqrt 2 / 2 ≤ 1 := by
    rw [← cos_pi_div_four]; exact cos_le_one _
  have h3 : (0 : ℝ) ≤ sqrt 2 / 2 := by positivity
  simp only [Quat.angleNormalised, Quat.dot, Quat.one, one_mul, zero_mul, add_zero, h]
  rw [min_eq_left h2, max_eq_left (by linarith), ← cos_pi_div_four,
    arccos_cos (by positivity) (by linarith [pi_pos])]
  ring

/-! ### Spherical interpolation -/

/-- The two weights of spherical interpolation between directions at angle `w`:
they reach 1 and 0 at the ends, and the interpolated direction keeps length one and
moves from the first direction at constant speed. -/
theorem slerp_weights (w t : ℝ) (hw : sin w ≠ 0) :
    let a := sin ((1 - t) * w) / sin w
    let b := sin (t * w) / sin w
    a + b * cos w = cos (t * w) ∧ a * cos w + b = cos ((1 - t) * w) ∧
      a ^ 2 + b ^ 2 + 2 * a * b * cos w = 1 := by
  have h1 : sin ((1 - t) * w) = sin w * cos (t * w) - cos w * sin (t * w) := by
    rw [show (1 - t) * w = w - t * w by ring, sin_sub]
  have h2 : cos ((1 - t) * w) = cos w * cos (t * w) + sin w * sin (t * w) := by
    rw [show (1 - t) * w = w - t * w by ring, cos_sub]
  have h3 := sin_sq_add_cos_sq w
  have h4 := sin_sq_add_cos_sq (t * w)
  simp only [h1, h2]
  refine ⟨?_, ?_, ?_⟩
  · field_simp; ring
  · field_simp
    linear_combination (-sin (t * w)) * h3
  · field_simp
    linear_combination (-sin (t * w) ^ 2) * h3 + sin w ^ 2 * h4

theorem unit_normalise (eps : ℝ) (h1 : eps ≤ 1) (p : Quat ℝ) (hp : p.normSquare = 1) :
    p.normalise eps = .ok (some p) := by
  have hn : p.norm = 1 := by rw [Quat.norm, hp, sqrt_one]
  simp [Quat.normalise, hn, not_lt.mpr h1, fdiv, Quat.scale]

theorem dot_bounds (p q : Quat ℝ) (hp : p.normSquare = 1) (hq : q.normSquare = 1) :
    -1 ≤ p.dot q ∧ p.dot q ≤ 1 := by
  simp only [Quat.normSquare, Quat.dot] at *
  constructor
  · nlinarith [sq_nonneg (p.w + q.w), sq_nonneg (p.x + q.x), sq_nonneg (p.y + q.y),
      sq_nonneg (p.z + q.z)]
  · nlinarith [sq_nonneg (p.w - q.w), sq_nonneg (p.x - q.x), sq_nonneg (p.y - q.y),
      sq_nonneg (p.z - q.z)]

theorem vec_dot_bounds (p q : Vec ℝ) (hp : p.normSquare = 1) (hq : q.normSquare = 1) :
    -1 ≤ p.dot q ∧ p.dot q ≤ 1 := by
  simp only [Vec.normSquare, Vec.dot] at *
  constructor
  · nlinarith [sq_nonneg (p.x + q.x), sq_nonneg (p.y + q.y), sq_nonneg (p.z + q.z)]
  · nlinarith [sq_nonneg (p.x - q.x), sq_nonneg (p.y - q.y), sq_nonneg (p.z - q.z)]

theorem sin_arccos_ne {d : ℝ} (h1 : -1 < d) (h2 : d < 1) : sin (arccos d) ≠ 0 := by
  rw [sin_arccos]
  have : 0 < 1 - d ^ 2 := by nlinarith
  exact (sqrt_pos.mpr this).ne'

/-- **C43 (interpolation of quaternions)**.  Between two unit quaternions that are
neither equal nor opposite, spherical interpolation gives unit quaternions, starts
and ends at the two, and its angle (on the unit sphere) to the first grows linearly. -/
theorem slerp_unit (eps : ℝ) (h1 : eps ≤ 1) (p q : Quat ℝ) (hp : p.normSquare = 1)
    (hq : q.normSquare = 1) (hd1 : -1 < p.dot q) (hd2 : p.dot q < 1) (t : ℝ) :
    ∃ r, p.interpolateSpherical eps q t = .ok (some r) ∧ r.normSquare = 1 ∧
      r.dot p = cos (t * arccos (p.dot q)) ∧ r.dot q = cos ((1 - t) * arccos (p.dot q)) ∧
      (t = 0 → r = p) ∧ (t = 1 → r = q) := by
  have hsin := sin_arccos_ne hd1 hd2
  have hcos := cos_arccos hd1.le hd2.le
  have hclip : min 1 (max (-1) (p.dot q)) = p.dot q := by
    rw [max_eq_right hd1.le, min_eq_right hd2.le]
  refine ⟨(p.scale (sin ((1 - t) * arccos (p.dot q)) / sin (arccos (p.dot q)))).add
    (q.scale (sin (t * arccos (p.dot q)) / sin (arccos (p.dot q)))), ?_, ?_, ?_, ?_, ?_, ?_⟩
  · simp [Quat.interpolateSpherical, unit_normalise eps h1 _ hp, unit_normalise eps h1 _ hq, hclip,
      fdiv, hsin]
  all_goals
    have hw := slerp_weights (arccos (p.dot q)) t hsin
    simp only [hcos] at hw
    obtain ⟨w1, w2, w3⟩ := hw
  · generalize sin ((1 - t) * arccos (p.dot q)) / sin (arccos (p.dot q)) = a at *
    generalize sin (t * arccos (p.dot q)) / sin (arccos (p.dot q)) = b at *
    have : ((p.scale a).add (q.scale b)).normSquare =
        a ^ 2 * p.normSquare + b ^ 2 * q.normSquare + 2 * a * b * p.dot q := by
      simp only [Quat.normSquare, Quat.add, Quat.scale, Quat.dot]; ring
    rw [this, hp, hq]; linarith
  · rw [← w1]
    generalize sin ((1 - t) * arccos (p.dot q)) / sin (arccos (p.dot q)) = a at *
    generalize sin (t * arccos (p.dot q)) / sin (arccos (p.dot q)) = b at *
    have : ((p.scale a).add (q.scale b)).dot p = a * p.normSquare + b * p.dot q := by
      simp only [Quat.normSquare, Quat.add, Quat.scale, Quat.dot]; ring
    rw [this, hp]; ring
  · rw [← w2]
    generalize sin ((1 - t) * arccos (p.dot q)) / sin (arccos (p.dot q)) = a at *
    generalize sin (t * arccos (p.dot q)) / sin (arccos (p.dot q)) = b at *
    have : ((p.scale a).add (q.scale b)).dot q = a * p.dot q + b * q.normSquare := by
      simp only [Quat.normSquare, Quat.add, Quat.scale, Quat.dot]; ring
    rw [this, hq]; ring
  · rintro rfl
    simp only [sub_zero, one_mul, zero_mul, sin_zero, zero_div, div_self hsin, Quat.scale, Quat.add]
    ext <;> simp
  · rintro rfl
    simp only [sub_self, one_mul, zero_mul, sin_zero, zero_div, div_self hsin, Quat.scale, Quat.add]
    ext <;> simp

example : (⟨3 / 5, 0, 4 / 5, 0⟩ : Quat ℝ).normSquare = 1 ∧
    (-1 : ℝ) < Quat.dot Quat.one (⟨3 / 5, 0, 4 / 5, 0⟩ : Quat ℝ) ∧
    Quat.dot Quat.one (⟨3 / 5, 0, 4 / 5, 0⟩ : Quat ℝ) < 1 := by
  norm_num [Quat.normSquare, Quat.dot, Quat.one]

/-- Interpolating between two *equal* (or opposite) unit quaternions does not give
a quaternion: the coordinates are NaN, for every interpolation position. -/
theorem slerp_equal_is_nan (eps : ℝ) (h1 : eps ≤ 1) (p : Quat ℝ) (hp : p.normSquare = 1) (t : ℝ) :
    p.interpolateSpherical eps p t = .ok none ∧
      p.interpolateSpherical eps (p.scale (-1)) t = .ok none := by
  have hd : p.dot p = 1 := hp
  have hp' : (p.scale (-1)).normSquare = 1 := by
    simp only [Quat.normSquare] at hp
    simp only [Quat.scale, Quat.normSquare]; linear_combination hp
  have hd' : p.dot (p.scale (-1)) = -1 := by
    simp only [Quat.normSquare] at hp
    simp only [Quat.scale, Quat.dot]; linear_combination -hp
  constructor
  · simp [Quat.interpolateSpherical, unit_normalise eps h1 _ hp, hd, fdiv]
  · simp [Quat.interpolateSpherical, unit_normalise eps h1 _ hp, unit_normalise eps h1 _ hp', hd',
      fdiv]

/-- **C43 (interpolation of positions)**.  Between two positions that can be
normalised and whose directions are neither within the machine epsilon of each
other nor opposite, the interpolated position has the linearly interpolated
distance from the origin, and the ends are reached. -/
theorem position_slerp (eps : ℝ) (h0 : 0 < eps) (p q : Vec ℝ) (hp : ¬ p.norm < eps)
    (hq : ¬ q.norm < eps) (t : ℝ)
    (hd1 : -(p.norm * q.norm) < p.dot q)
    (hd2 : ¬ arccos (p.dot q / (p.norm * q.norm)) < eps) :
    ∃ r, p.interpolateSpherical eps q t = .ok (some r) ∧
      r.normSquare = ((1 - t) * p.norm + t * q.norm) ^ 2 ∧
      (t = 0 → r = p) ∧ (t = 1 → r = q) := by
  obtain ⟨m, hm, hm1, hm2⟩ := (vec_normalise eps h0 p).2 hp
  obtain ⟨n, hn, hn1, hn2⟩ := (vec_normalise eps h0 q).2 hq
  have hpp : 0 < p.norm := lt_of_lt_of_le h0 (not_lt.mp hp)
  have hqp : 0 < q.norm := lt_of_lt_of_le h0 (not_lt.mp hq)
  have hdot : p.dot q = p.norm * q.norm * m.dot n := by
    conv_lhs => rw [hm2, hn2]
    simp only [Vec.scale, Vec.dot]; ring
  obtain ⟨b1, b2⟩ := vec_dot_bounds m n hm1 hn1
  have hpq : 0 < p.norm * q.norm := mul_pos hpp hqp
  have hmn : p.dot q / (p.norm * q.norm) = m.dot n := by rw [hdot]; field_simp
  rw [hmn] at hd2
  have c1 : -1 < m.dot n := by
    rw [hdot] at hd1
    by_contra hc
    have : m.dot n = -1 := le_antisymm (not_lt.mp hc) b1
    rw [this] at hd1; linarith
  have c2 : m.dot n < 1 := by
    rcases b2.lt_or_eq with h | h
    · exact h
    · rw [h, arccos_one] at hd2; exact absurd h0 hd2
  have hsin := sin_arccos_ne c1 c2
  have hcos := cos_arccos b1 b2
  have hang : m.angleNormalised n = arccos (m.dot n) := by
    rw [Vec.angleNormalised, min_eq_right b2, max_eq_right b1]
  have hw := slerp_weights (arccos (m.dot n)) t hsin
  simp only [hcos] at hw
  obtain ⟨-, -, w3⟩ := hw
  refine ⟨((m.scale (1 / sin (arccos (m.dot n)) * sin ((1 - t) * arccos (m.dot n)))).add
    (n.scale (1 / sin (arccos (m.dot n)) * sin (t * arccos (m.dot n))))).scale
      ((1 - t) * p.norm + t * q.norm), ?_, ?_, ?_, ?_⟩
  · simp [Vec.interpolateSpherical, hm, hn, hang, hd2, fdiv, hsin]
  · simp only [one_div_mul_eq_div]
    generalize sin ((1 - t) * arccos (m.dot n)) / sin (arccos (m.dot n)) = a at *
    generalize sin (t * arccos (m.dot n)) / sin (arccos (m.dot n)) = b at *
    generalize (1 - t) * p.norm + t * q.norm = c at *
    have : (((m.scale a).add (n.scale b)).scale c).normSquare =
        c ^ 2 * (a ^ 2 * m.normSquare + b ^ 2 * n.normSquare + 2 * a * b * m.dot n) := by
      simp only [Vec.normSquare, Vec.add, Vec.scale, Vec.dot]; ring
    rw [this, hm1, hn1, show a ^ 2 * 1 + b ^ 2 * 1 + 2 * a * b * m.dot n = 1 by linarith]; ring
  · rintro rfl
    conv_rhs => rw [hm2]
    simp only [one_div_mul_eq_div, sub_zero, one_mul, zero_mul, sin_zero, zero_div, div_self hsin,
      Vec.scale, Vec.add]
    ext <;> simp
  · rintro rfl
    conv_rhs => rw [hn2]
    simp only [one_div_mul_eq_div, sub_self, one_mul, zero_mul, sin_zero, zero_div, div_self hsin,
      Vec.scale, Vec.add]
    ext <;> simp

/-! ### Listener positions move rigidly -/

/-- Where a point fixed to the listener's head, given in head coordinates, is in
space. -/
def Listener.place (l : Listener) (p : Vec ℝ) : Vec ℝ := (p.rotate l.orient).add l.pos

/-- **C43 (listener)**.  Transforming a listener position by a rotation and a
translation moves every point fixed to the listener by exactly that rotation and
translation; the time stamp, face id and number of listeners stay. -/
theorem listener_transform_rigid (l : Listener) (q : Quat ℝ) (s p : Vec ℝ) :
    (l.transform q s).place p = (l.place p).transform q s ∧
      (l.transform q s).time = l.time ∧ (l.transform q s).face = l.face ∧
      (l.transform q s).listeners = l.listeners := by
  refine ⟨?_, rfl, rfl, rfl⟩
  simp only [Listener.place, Listener.transform, Listener.translate, Listener.rotate,
    Listener.rotatePosition, Listener.rotateOrientation, Vec.transform, Vec.translate,
    ← rotate_compose]
  have := rotate_linear q 1 (p.rotate l.orient) l.pos
  simp only [Vec.scale, one_mul] at this
  rw [this]
  simp only [Vec.add]
  ext <;> ring

/-- Two transforms after each other are one transform with the product of the
rotations. -/
theorem listener_transform_compose (l : Listener) (q1 q2 : Quat ℝ) (s1 s2 : Vec ℝ) :
    (l.transform q1 s1).transform q2 s2 =
      l.transform (q2.mul q1) ((s1.rotate q2).add s2) := by
  have h := rotate_linear q2 1 (l.pos.rotate q1) s1
  simp only [Vec.scale, one_mul] at h
  simp only [Listener.transform, Listener.translate, Listener.rotate, Listener.rotatePosition,
    Listener.rotateOrientation, (quat_monoid q2 q1 l.orient).1]
  simp only [Listener.mk.injEq, true_and, and_true]
  rw [h, ← rotate_compose]
  simp only [Vec.add]
  ext <;> ring

/-- Rotating a listener by a unit quaternion and back restores it. -/
theorem listener_rotate_back (l : Listener) (q : Quat ℝ) (hq : q.normSquare = 1) :
    (l.rotate q).rotate q.conj = l := by
  have h1 : q.conj.mul q = Quat.one := by
    simp only [Quat.normSquare] at hq
    simp only [Quat.conj, Quat.mul, Quat.one]
    ext
    · linear_combination hq
    · ring
    · ring
    · ring
  simp only [Listener.rotate, Listener.rotatePosition, Listener.rotateOrientation,
    (rotate_conj_undoes q hq l.pos).1, ← (quat_monoid q.conj q l.orient).1, h1,
    (quat_monoid l.orient l.orient l.orient).2.1]

/-! ### C49: messages -/

theorem degree_roundtrip (r : ℝ) : degree2radian (radian2degree r) = r := by
  have := pi_pos.ne'
  simp only [degree2radian, radian2degree]
  field_simp

/-- **C49 (quaternion format)**.  Writing any listener position with the
quaternion format and reading the message, into whatever object, restores it
completely. -/
theorem message_roundtrip_quaternion (eps : ℝ) (l l0 : Listener) :
    l0.parseJson eps (l.writeJson eps .quaternion) = (.ok (), l) := by
  have ht : (if l.time ≠ 0 then Entry.val l.time else .missing).getD 0 = l.time := by
    split_ifs with h
    · rfl
    · simp only [Entry.getD]; omega
  have hf : (if l.face ≠ 0 then Entry.val l.face else .missing).getD 0 = l.face := by
    split_ifs with h
    · rfl
    · simp only [Entry.getD]; omega
  simp only [Listener.parseJson, Listener.writeJson, readOrientation, Entry.present, Option.isSome,
    ht, hf]
  simp [Entry.get, Entry.getD]

/-- **C49 (rotation vector format)**.  The same for the rotation vector format,
when the orientation is a unit quaternion that is either no rotation or has a
vector part longer than the machine epsilon. -/
theorem message_roundtrip_rotation_vector (eps : ℝ) (h0 : 0 < eps) (h1 : eps ≤ 1)
    (l l0 : Listener) (hq : l.orient.normSquare = 1)
    (hv : eps < sqrt (l.orient.x * l.orient.x + l.orient.y * l.orient.y + l.orient.z * l.orient.z) ∨
      (l.orient.x = 0 ∧ l.orient.y = 0 ∧ l.orient.z = 0)) :
    l0.parseJson eps (l.writeJson eps .rotationVector) = (.ok (), l) := by
  have ht : (if l.time ≠ 0 then Entry.val l.time else .missing).getD 0 = l.time := by
    split_ifs with h
    · rfl
    · simp only [Entry.getD]; omega
  have hf : (if l.face ≠ 0 then Entry.val l.face else .missing).getD 0 = l.face := by
    split_ifs with h
    · rfl
    · simp only [Entry.getD]; omega
  have hr := rotation_vector_read_back eps h0 h1 l.orient hq hv
  simp only [Listener.parseJson, Listener.writeJson, readOrientation, Entry.present, Option.isSome,
    ht, hf]
  simp [Entry.get, Entry.getD, degree_roundtrip, hr]

/-- **C49 (yaw, pitch, roll format)**.  The same for the angle format when the
orientation is a unit quaternion away from the poles: position, time stamp, face id
and number of listeners are restored, and the orientation up to the sign, which
does not change any rotated point. -/
theorem message_roundtrip_ypr (eps : ℝ) (l l0 : Listener) (hq : l.orient.normSquare = 1)
    (hpole : |2 * (l.orient.w * l.orient.y - l.orient.z * l.orient.x)| < 1) :
    ∃ o : Quat ℝ, l0.parseJson eps (l.writeJson eps .ypr) = (.ok (), { l with orient := o }) ∧
      (o = l.orient ∨ o = l.orient.scale (-1)) ∧ ∀ v : Vec ℝ, v.rotate o = v.rotate l.orient := by
  have ht : (if l.time ≠ 0 then Entry.val l.time else .missing).getD 0 = l.time := by
    split_ifs with h
    · rfl
    · simp only [Entry.getD]; omega
  have hf : (if l.face ≠ 0 then Entry.val l.face else .missing).getD 0 = l.face := by
    split_ifs with h
    · rfl
    · simp only [Entry.getD]; omega
  obtain ⟨h1, h2⟩ := ypr_describes l.orient hq hpole
  refine ⟨_, ?_, h1, h2⟩
  simp only [Listener.parseJson, Listener.writeJson, readOrientation, Entry.present, Option.isSome,
    ht, hf]
  simp [Entry.getD, degree_roundtrip]

example : (⟨0, 0, 1, ⟨1, 2, 3⟩, ⟨3 / 5, 0, 0, 4 / 5⟩⟩ : Listener).orient.normSquare = 1 ∧
    |2 * ((3 / 5 : ℝ) * 0 - 4 / 5 * 0)| < 1 := by
  norm_num [Quat.normSquare]

/-- At the poles the angle format loses the orientation: the unit quaternion of a
half turn after looking straight down comes back as a different rotation. -/
theorem ypr_pole_lost : ∃ (q : Quat ℝ) (v : Vec ℝ), q.normSquare = 1 ∧
    v.rotate (Quat.fromYPR q.yaw q.pitch q.roll) ≠ v.rotate q := by
  have h2 : sqrt 2 / 2 * (sqrt 2 / 2) = (1 / 2 : ℝ) := by
    have := mul_self_sqrt (show (0 : ℝ) ≤ 2 by norm_num)
    linear_combination (1 / 4 : ℝ) * this
  refine ⟨⟨0, -(sqrt 2 / 2), 0, sqrt 2 / 2⟩, ⟨0, 1, 0⟩, ?_, ?_⟩
  · simp only [Quat.normSquare]; linear_combination 2 * h2
  · have hat : atan2 0 0 = 0 := by
      rw [atan2, show (⟨0, 0⟩ : ℂ) = 0 from rfl, Complex.arg_zero]
    have hy : (⟨0, -(sqrt 2 / 2), 0, sqrt 2 / 2⟩ : Quat ℝ).yaw = 0 := by
      simp only [Quat.yaw]
      rw [show 1 - 2 * ((0 : ℝ) * 0 + sqrt 2 / 2 * (sqrt 2 / 2)) = 0 by rw [h2]; norm_num]
      rw [show 2 * ((0 : ℝ) * (sqrt 2 / 2) + -(sqrt 2 / 2) * 0) = 0 by ring]
      exact hat
    have hr : (⟨0, -(sqrt 2 / 2), 0, sqrt 2 / 2⟩ : Quat ℝ).roll = 0 := by
      simp only [Quat.roll]
      rw [show 1 - 2 * (-(sqrt 2 / 2) * -(sqrt 2 / 2) + (0 : ℝ) * 0) = 0 by
        rw [neg_mul_neg, h2]; norm_num]
      rw [show 2 * ((0 : ℝ) * (-(sqrt 2 / 2)) + 0 * (sqrt 2 / 2)) = 0 by ring]
      exact hat
    rw [hy, hr, (ypr_rotates _ _ _).2]
    intro h
    have := congrArg Vec.y h
    simp [aboutX, aboutY, aboutZ, Vec.rotate, Quat.mul, Quat.conj] at this
    linarith

/-- **C49 (several orientations)**.  A message that gives the orientation in more
than one form is refused with `invalid_argument`. -/
theorem message_two_orientations (eps : ℝ) (l : Listener) (t : ListenerTree) (o : OrientTree)
    (ho : t.orientation = some o)
    (h : (o.quaternion.isSome ∧ o.rotationVector.isSome) ∨
      (o.quaternion.isSome ∧ (o.yaw.present ∨ o.pitch.present ∨ o.roll.present)) ∨
      (o.rotationVector.isSome ∧ (o.yaw.present ∨ o.pitch.present ∨ o.roll.present))) :
    l.parseJson eps t = (.throw .invalidArgument, l) := by
  have key : readOrientation eps t.orientation = .throw .invalidArgument := by
    rw [ho]
    simp only [readOrientation]
    rw [if_pos]
    rcases h with ⟨a, b⟩ | ⟨a, b⟩ | ⟨a, b⟩
    · simp only [a, b, if_true]; split_ifs <;> omega
    · have : (o.yaw.present || o.pitch.present || o.roll.present) = true := by
        simpa [or_assoc] using b
      simp only [a, this, if_true]; split_ifs <;> omega
    · have : (o.yaw.present || o.pitch.present || o.roll.present) = true := by
        simpa [or_assoc] using b
      simp only [a, this, if_true]; split_ifs <;> omega
  simp only [Listener.parseJson, key]

/-- **C49 (atomicity)**.  Reading never reaches undefined behaviour, and a message
whose reading throws leaves the listener position untouched. -/
theorem message_atomic (eps : ℝ) (l : Listener) (t : ListenerTree) :
    (l.parseJson eps t).1 ≠ .ub ∧
      ∀ e, (l.parseJson eps t).1 = .throw e → (l.parseJson eps t).2 = l := by
  have key : readOrientation eps t.orientation ≠ .ub := by
    cases t.orientation with
    | none => simp [readOrientation]
    | some o =>
      simp only [readOrientation]
      have hg : ∀ e : Entry ℝ, e.get ≠ .ub := by intro e; cases e <;> simp [Entry.get]
      have hb : ∀ {α : Type} (e : Entry ℝ) (f : ℝ → Outcome α), (∀ a, f a ≠ .ub) →
          (e.get >>= f) ≠ .ub := by
        intro α e f hf
        cases e <;> simp [Entry.get, hf]
      have hite : ∀ {α : Type} (c : Prop) [Decidable c] (a b : Outcome α), a ≠ .ub → b ≠ .ub →
          (if c then a else b) ≠ .ub := by
        intro α c _ a b ha hb'
        split_ifs <;> assumption
      refine hite _ _ _ (by simp) ?_
      cases o.quaternion with
      | some q => exact hb _ _ fun _ => hb _ _ fun _ => hb _ _ fun _ => hb _ _ fun _ => by simp
      | none =>
        refine hite _ _ _ (by simp) ?_
        cases o.rotationVector with
        | none => simp
        | some r =>
          refine hb _ _ fun _ => hb _ _ fun _ => hb _ _ fun _ => hb _ _ fun _ => ?_
          simp only [Quat.fromRotationVector, Vec.normalise]
          split_ifs <;> simp
  constructor
  · simp only [Listener.parseJson]
    cases h : readOrientation eps t.orientation with
    | ok q => simp
    | throw e => simp
    | ub => exact absurd h key
  · intro e
    simp only [Listener.parseJson]
    cases h : readOrientation eps t.orientation with
    | ok q => simp
    | throw e => simp
    | ub => simp

/-- A quaternion with a missing or unreadable component is refused. -/
example (l : Listener) : l.parseJson 1 { (l.writeJson 1 .quaternion) with
      orientation := some { quaternion := some ⟨.val 1, .val 0, .missing, .val 0⟩, yaw := .missing,
                            pitch := .missing, roll := .missing, rotationVector := none } } =
    (.throw .runtimeError, l) := by
  simp [Listener.parseJson, readOrientation, Entry.present, Entry.get]

/-- A message without any orientation resets it, without a position resets that
too: values not given are the defaults, not the previous ones. -/
theorem message_defaults (eps : ℝ) (l : Listener) :
    l.parseJson eps ⟨.missing, .missing, .missing, none, .missing, .missing, .missing⟩ =
      (.ok (), ⟨0, 0, 1, ⟨0, 0, 0⟩, Quat.one⟩) := by
  simp [Listener.parseJson, readOrientation, Entry.getD]

end Visr.Rotation
