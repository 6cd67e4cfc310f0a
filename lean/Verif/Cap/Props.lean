import Verif.Cap.Lemmas
import Verif.Rotation.Props
import Verif.Vbap.Props
import Verif.Run
import Mathlib.Data.List.Induction

/-!
# C58: compensated amplitude panning

`unit (relative s src)` is the direction of the source as seen from the listener.
-/

namespace Visr.Cap
open Visr Visr.Rotation

theorem gains_multi {s : Cap} (hn : 3 ≤ s.speakers.length) (src : Source) : gains s src = .ok (multi s src) := by
  have hl : s.directions.length = s.speakers.length := by simp [Cap.directions]
  unfold gains
  match h : s.directions with
  | [] => rw [h] at hl; simp at hl; omega
  | [_] => rw [h] at hl; simp at hl; omega
  | [_, _] => rw [h] at hl; simp at hl; omega
  | _ :: _ :: _ :: _ => rfl

theorem unit_ray {v : Vec ℝ} (h : v.norm ≠ 0) : IsRay v (unit v) := by
  have hn : 0 ≤ v.norm := Real.sqrt_nonneg _
  have hp : 0 < v.norm := lt_of_le_of_ne hn (Ne.symm h)
  have hsq : v.norm * v.norm = v.x * v.x + v.y * v.y + v.z * v.z := by
    unfold Vec.norm
    rw [Real.mul_self_sqrt]
    · rfl
    · unfold Vec.normSquare; nlinarith [mul_self_nonneg v.x, mul_self_nonneg v.y, mul_self_nonneg v.z]
  unfold unit
  rw [if_neg h]
  refine ⟨?_, v.norm, hp, ?_⟩
  · simp only
    field_simp
    nlinarith [hsq]
  · simp only [Vec.scale]
    ext <;> simp only <;> field_simp

/-- **C58.** The directions used in the following statements: loudspeakers and point sources are seen from the listener,
plane waves come from their direction wherever the listener is; the distance of a point source is that from the
listener. -/
theorem directions_seen (s : Cap) :
    s.directions.length = s.speakers.length ∧
    (∀ (k : Nat) (p : Vec ℝ), s.speakers[k]? = some p → (p.sub s.listener).norm ≠ 0 →
      ∃ d, s.directions[k]? = some d ∧ IsRay (p.sub s.listener) d) ∧
    (∀ p : Vec ℝ, (p.sub s.listener).norm ≠ 0 → IsRay (p.sub s.listener) (unit (relative s ⟨p, false⟩)) ∧
      (relative s ⟨p, false⟩).norm = (p.sub s.listener).norm) ∧
    (∀ p : Vec ℝ, p.norm ≠ 0 → IsRay p (unit (relative s ⟨p, true⟩)) ∧ (relative s ⟨p, true⟩).norm = p.norm) := by
  refine ⟨by simp [Cap.directions], fun k p hk hp => ⟨unit (p.sub s.listener), ?_, unit_ray hp⟩,
    fun p hp => ⟨unit_ray hp, rfl⟩, fun p hp => ⟨unit_ray hp, rfl⟩⟩
  simp [Cap.directions, hk]

/-- **C58.** Three or more loudspeakers, which the listener's interaural axis tells apart: the gains give the source
its interaural cue, among all such gains with the same total they have the least energy, the total is the inverse of
the distance from the listener relative to the distance from the origin (with an offset of one centimetre), reduced if
necessary to keep all gains below the limit.

Partial: the limit is not effective for negative gains (`negative_gain_unlimited`), and there are no gains if the
interaural axis does not tell the loudspeakers apart (`median_plane_is_nan`) or the source is at the origin
(`origin_is_silent`). -/
theorem cap_multi_partial (s : Cap) (hn : 3 ≤ s.speakers.length) (hmax : 0 < s.maxGain) (src : Source)
    (hpos : src.pos.norm ≠ 0) (u v : Vec ℝ) (hu : u ∈ s.directions) (hv : v ∈ s.directions)
    (huv : s.axis.dot u ≠ s.axis.dot v) :
    ∃ g : List ℝ, gains s src = .ok (g.map some) ∧ g.length = s.speakers.length ∧
      Optimal s.axis s.directions (unit (relative s src)) g ∧ (∀ x ∈ g, x ≤ s.maxGain) ∧
      ∃ f : ℝ, 0 < f ∧ f ≤ 1 ∧ total g = f * (src.pos.norm / ((relative s src).norm + 1 / 100)) ∧
        (f = 1 ∨ s.maxGain ∈ g) := by
  rw [gains_multi hn src]
  have hl : s.directions.length = s.speakers.length := by simp [Cap.directions]
  set rI := unit (relative s src) with hrI
  set a : List ℝ := s.directions.map fun v => s.axis.dot (v.sub rI) with ha
  have hla : a.length = s.directions.length := by simp [ha]
  have hpos' : 0 < src.pos.norm := lt_of_le_of_ne (Real.sqrt_nonneg _) (Ne.symm hpos)
  have hrel : 0 ≤ (relative s src).norm := Real.sqrt_nonneg _
  have he : 0 < energy a * a.length - a.sum * a.sum :=
    spread_pos a (List.mem_map_of_mem hu) (List.mem_map_of_mem hv) (by
      rw [Vec.dot_sub, Vec.dot_sub]
      intro h
      exact huv (by linarith))
  set e := energy a * a.length - a.sum * a.sum with hedef
  set d := e * ((relative s src).norm + 1 / 100) / src.pos.norm with hd
  have hdpos : 0 < d := by rw [hd]; positivity
  set g0 : List ℝ := a.map fun x => (-a.sum * x + energy a) / d with hg0
  have hg0' : ∀ f : ℝ, g0.map (fun x => x * f) = a.map fun x => energy a / d * f + -a.sum / d * f * x := by
    intro f
    rw [hg0, List.map_map]
    refine List.map_congr_left fun x _ => ?_
    simp only [Function.comp]
    ring
  have opt : ∀ f : ℝ, Optimal s.axis s.directions rI (g0.map fun x => x * f) ∧
      total (g0.map fun x => x * f) = f * (src.pos.norm / ((relative s src).norm + 1 / 100)) := by
    intro f
    have hlen : (g0.map fun x => x * f).length = s.directions.length := by simp [hg0, hla]
    have hdot : dotp (g0.map fun x => x * f) a = 0 := by
      rw [hg0', dotp_line]
      ring
    refine ⟨⟨(balanced_iff _ _ _ _ hlen).2 hdot, ?_⟩, ?_⟩
    · intro h hh hb ht
      have hb' := (balanced_iff _ _ _ _ hh).1 hb
      have := energy_line (energy a / d * f) (-a.sum / d * f) a h (by rw [hh, hla])
      rw [← hg0', hdot, hb'] at this
      unfold total at ht
      rw [ht] at this
      simpa using this
    · rw [hg0', total_line]
      have h1 : energy a / d * f * a.length + -a.sum / d * f * a.sum = f * (e / d) := by
        rw [hedef]; ring
      rw [h1, hd]
      have he' := he.ne'
      field_simp
  have hmulti : multi s src = if g0.foldl (fun m x => if x > m then x else m) 0 > s.maxGain then
      g0.map fun x => some (x * (s.maxGain / g0.foldl (fun m x => if x > m then x else m) 0)) else g0.map some := by
    unfold multi
    simp only [← hrI]
    rw [← ha, foldl_add, foldl_sq, zero_add, zero_add, ← hla, ← hedef, if_neg he.ne', if_neg hpos, ← hd, ← hg0]
  obtain ⟨m1, m2, m3⟩ := gMax_spec g0 0
  set gMax := g0.foldl (fun m x => if x > m then x else m) 0 with hgMax
  by_cases hlim : gMax > s.maxGain
  · rw [if_pos hlim] at hmulti
    have hgpos : 0 < gMax := hmax.trans hlim
    refine ⟨g0.map fun x => x * (s.maxGain / gMax), by simp only [hmulti, List.map_map, Function.comp_def], by simp [hg0, hla, hl],
      (opt _).1, ?_, s.maxGain / gMax, by positivity, ?_, (opt _).2, .inr ?_⟩
    · intro x hx
      obtain ⟨y, hy, rfl⟩ := List.mem_map.1 hx
      have := m2 y hy
      rw [mul_div_assoc', div_le_iff₀ hgpos]
      nlinarith
    · rw [div_le_one hgpos]; exact hlim.le
    · rcases m3 with m3 | m3
      · rw [m3] at hgpos; exact absurd hgpos (lt_irrefl _)
      · refine List.mem_map.2 ⟨gMax, m3, ?_⟩
        field_simp
  · rw [if_neg hlim] at hmulti
    have h1 : g0.map (fun x => x * 1) = g0 := by simp
    have o1 := opt 1
    rw [h1] at o1
    refine ⟨g0, by rw [hmulti], by simp [hg0, hla, hl], o1.1, ?_, 1, one_pos, le_refl _, o1.2, .inl rfl⟩
    intro x hx
    exact (m2 x hx).trans (not_lt.1 hlim)

/-- C58, negation: if all loudspeakers have the same component along the interaural axis (for example, all are in the
median plane), all gains are NaN, whatever the source. -/
theorem median_plane_is_nan (s : Cap) (hn : 3 ≤ s.speakers.length) (t : ℝ) (h : ∀ u ∈ s.directions, s.axis.dot u = t)
    (src : Source) : gains s src = .ok (s.speakers.map fun _ => none) := by
  rw [gains_multi hn src]
  unfold multi
  simp only
  rw [foldl_add, foldl_sq, zero_add, zero_add]
  have hz := spread_zero (s.directions.map fun v => s.axis.dot (v.sub (unit (relative s src))))
    (t - s.axis.dot (unit (relative s src))) (by
      intro x hx
      obtain ⟨u, hu, rfl⟩ := List.mem_map.1 hx
      rw [Vec.dot_sub, h u hu])
  rw [List.length_map] at hz
  rw [if_pos hz]
  simp only [Cap.directions, List.map_map, Function.comp_def]

/-- C58, negation: a source at the origin is silent. -/
theorem origin_is_silent (s : Cap) (hn : 3 ≤ s.speakers.length) (src : Source) (hpos : src.pos.norm = 0)
    (u v : Vec ℝ) (hu : u ∈ s.directions) (hv : v ∈ s.directions) (huv : s.axis.dot u ≠ s.axis.dot v) :
    gains s src = .ok (s.speakers.map fun _ => some 0) := by
  rw [gains_multi hn src]
  unfold multi
  simp only
  rw [foldl_add, foldl_sq, zero_add, zero_add]
  have he := spread_pos (s.directions.map fun v => s.axis.dot (v.sub (unit (relative s src))))
    (List.mem_map_of_mem hu) (List.mem_map_of_mem hv) (by
      rw [Vec.dot_sub, Vec.dot_sub]
      intro h
      exact huv (by linarith))
  rw [List.length_map] at he
  rw [if_neg he.ne', if_pos hpos]
  simp only [Cap.directions, List.map_map, Function.comp_def]

/-- Three loudspeakers on the unit circle, at 0, 90 and 180 degrees, and the listener at the origin facing along the
negative x axis or similar (interaural axis `axis`). -/
noncomputable def three (axis p q r : Vec ℝ) : Cap := ⟨[p, q, r], ⟨0, 0, 0⟩, axis, false, 3 / 2, 10⟩

theorem norm_one {v : Vec ℝ} (h : v.x * v.x + v.y * v.y + v.z * v.z = 1) : v.norm = 1 := by
  rw [Vec.norm, Vec.normSquare, h, Real.sqrt_one]

theorem unit_of_one {v : Vec ℝ} (h : v.x * v.x + v.y * v.y + v.z * v.z = 1) : unit v = v := by
  unfold unit
  rw [norm_one h, if_neg one_ne_zero]
  simp

theorem sub_origin (v : Vec ℝ) : v.sub ⟨0, 0, 0⟩ = v := by simp [Vec.sub]

theorem three_directions {axis p q r : Vec ℝ} (hp : p.x * p.x + p.y * p.y + p.z * p.z = 1)
    (hq : q.x * q.x + q.y * q.y + q.z * q.z = 1) (hr : r.x * r.x + r.y * r.y + r.z * r.z = 1) :
    (three axis p q r).directions = [p, q, r] := by
  simp only [Cap.directions, three, List.map_cons, List.map_nil, sub_origin]
  rw [unit_of_one hp, unit_of_one hq, unit_of_one hr]

/-- C58: the hypotheses of `cap_multi_partial` are met. -/
example : ∃ (s : Cap) (src : Source) (u v : Vec ℝ), 3 ≤ s.speakers.length ∧ 0 < s.maxGain ∧ src.pos.norm ≠ 0 ∧
    u ∈ s.directions ∧ v ∈ s.directions ∧ s.axis.dot u ≠ s.axis.dot v := by
  refine ⟨three ⟨0, 1, 0⟩ ⟨1, 0, 0⟩ ⟨0, 1, 0⟩ ⟨0, -1, 0⟩, ⟨⟨1, 0, 0⟩, false⟩, ⟨1, 0, 0⟩, ⟨0, 1, 0⟩, ?_, ?_, ?_, ?_, ?_, ?_⟩
  · simp [three]
  · norm_num [three]
  · rw [norm_one (by norm_num)]; norm_num
  · rw [three_directions (by norm_num) (by norm_num) (by norm_num)]; simp
  · rw [three_directions (by norm_num) (by norm_num) (by norm_num)]; simp
  · simp [three, Vec.dot]

/-- C58: the hypotheses of `median_plane_is_nan` are met: loudspeakers in front, above and behind of a listener who
looks along the x axis. -/
example : ∃ (s : Cap) (t : ℝ), 3 ≤ s.speakers.length ∧ s.axis = auralAxis 0 0 0 ∧
    ∀ u ∈ s.directions, s.axis.dot u = t := by
  refine ⟨three (auralAxis 0 0 0) ⟨1, 0, 0⟩ ⟨0, 0, 1⟩ ⟨-1, 0, 0⟩, 0, by simp [three], rfl, ?_⟩
  rw [three_directions (by norm_num) (by norm_num) (by norm_num)]
  simp [three, auralAxis, Vec.dot]

/-- C58, negation: gains with a magnitude above the limit, which is 10. The limit is applied to the largest gain only;
negative gains are not limited. -/
theorem negative_gain_unlimited : ∃ (s : Cap) (src : Source) (g : List ℝ), s.maxGain = 10 ∧ 3 ≤ s.speakers.length ∧
    gains s src = .ok (g.map some) ∧ ∃ x ∈ g, x < -19 := by
  refine ⟨three ⟨0, 1, 0⟩ ⟨1, 0, 0⟩ ⟨-1, 0, 0⟩ ⟨9999 / 10001, 200 / 10001, 0⟩, ⟨⟨0, -1, 0⟩, false⟩, ?_⟩
  have hdir := three_directions (axis := ⟨0, 1, 0⟩) (p := ⟨1, 0, 0⟩) (q := ⟨-1, 0, 0⟩)
    (r := ⟨9999 / 10001, 200 / 10001, 0⟩) (by norm_num) (by norm_num) (by norm_num)
  set s := three ⟨0, 1, 0⟩ ⟨1, 0, 0⟩ ⟨-1, 0, 0⟩ ⟨9999 / 10001, 200 / 10001, 0⟩ with hs
  have hrel : relative s ⟨⟨0, -1, 0⟩, false⟩ = ⟨0, -1, 0⟩ := by simp [relative, hs, three, sub_origin]
  have hn : (⟨0, -1, 0⟩ : Vec ℝ).norm = 1 := norm_one (by norm_num)
  have hu : unit (⟨0, -1, 0⟩ : Vec ℝ) = ⟨0, -1, 0⟩ := unit_of_one (by norm_num)
  have hm : multi s ⟨⟨0, -1, 0⟩, false⟩ = ([10, 10, -200020 / 10201] : List ℝ).map some := by
    unfold multi
    simp only [hdir, hrel, hn, hu]
    norm_num [hs, three, Vec.dot, Vec.sub]
  refine ⟨[10, 10, -200020 / 10201], rfl, by simp [hs, three], by rw [gains_multi (by simp [hs, three]), hm],
    -200020 / 10201, by simp, by norm_num⟩

/-! ### Two loudspeakers -/

theorem limit_spec {m : ℝ} (hm : 0 < m) (g : ℝ × ℝ) : ∃ f : ℝ, 0 < f ∧ f ≤ 1 ∧ limit m g = (g.1 * f, g.2 * f) ∧
    |g.1 * f| ≤ m ∧ |g.2 * f| ≤ m ∧ (|g.1| ≤ m → |g.2| ≤ m → f = 1) := by
  unfold limit
  simp only
  set M := if |g.2| > |g.1| then |g.2| else |g.1| with hM
  have h1 : |g.1| ≤ M := by rw [hM]; split_ifs with h <;> linarith
  have h2 : |g.2| ≤ M := by rw [hM]; split_ifs with h <;> linarith
  by_cases h : M > m
  · rw [if_pos h]
    have hMp : 0 < M := hm.trans h
    refine ⟨m / M, by positivity, (div_le_one hMp).2 h.le, rfl, ?_, ?_, ?_⟩
    · rw [abs_mul, abs_of_pos (by positivity : 0 < m / M), mul_div_assoc', div_le_iff₀ hMp]
      nlinarith
    · rw [abs_mul, abs_of_pos (by positivity : 0 < m / M), mul_div_assoc', div_le_iff₀ hMp]
      nlinarith
    · intro a1 a2
      exfalso
      rw [hM] at h
      split_ifs at h <;> linarith
  · rw [if_neg h]
    exact ⟨1, one_pos, le_refl _, by simp, by rw [mul_one]; linarith, by rw [mul_one]; linarith, fun _ _ => rfl⟩

theorem gains_two {s : Cap} {r0 r1 : Vec ℝ} (h : s.directions = [r0, r1]) (src : Source) :
    gains s src = .ok (two s r0 r1 src) := by
  unfold gains
  rw [h]

/-- **C58.** Two loudspeakers, standard mode: the gains always give the source its interaural cue, and are within the
limit. -/
theorem cap_two_balanced (s : Cap) (hm : s.hfMode = false) (hpre : 0 < s.maxGainPreComp) (hmax : 0 < s.maxGain)
    {r0 r1 : Vec ℝ} (h : s.directions = [r0, r1]) (src : Source) :
    ∃ g1 g2 : ℝ, gains s src = .ok [some g1, some g2] ∧
      Balanced s.axis [r0, r1] (unit (relative s src)) [g1, g2] ∧ |g1| ≤ s.maxGain ∧ |g2| ≤ s.maxGain := by
  rw [gains_two h]
  unfold two
  simp only [hm, Bool.false_eq_true, if_false]
  obtain ⟨f1, -, -, e1, -⟩ := limit_spec hpre
    (s.axis.dot ((unit (relative s src)).sub r1) /
      (if |s.axis.dot ((unit (relative s src)).sub r1) + -s.axis.dot ((unit (relative s src)).sub r0)| < 1 / 1000 then 1 / 1000
        else |s.axis.dot ((unit (relative s src)).sub r1) + -s.axis.dot ((unit (relative s src)).sub r0)|),
     -s.axis.dot ((unit (relative s src)).sub r0) /
      (if |s.axis.dot ((unit (relative s src)).sub r1) + -s.axis.dot ((unit (relative s src)).sub r0)| < 1 / 1000 then 1 / 1000
        else |s.axis.dot ((unit (relative s src)).sub r1) + -s.axis.dot ((unit (relative s src)).sub r0)|))
  rw [e1]
  simp only
  generalize (if |s.axis.dot ((unit (relative s src)).sub r1) + -s.axis.dot ((unit (relative s src)).sub r0)| < 1 / 1000 then
    (1 / 1000 : ℝ) else |s.axis.dot ((unit (relative s src)).sub r1) + -s.axis.dot ((unit (relative s src)).sub r0)|) = d
  generalize src.pos.norm / (if (relative s src).norm < 1 / 1000 then 1 / 1000 else (relative s src).norm) = c
  obtain ⟨f2, -, -, e2, b1, b2, -⟩ := limit_spec hmax
    (s.axis.dot ((unit (relative s src)).sub r1) / d * f1 * c, -s.axis.dot ((unit (relative s src)).sub r0) / d * f1 * c)
  rw [e2]
  refine ⟨_, _, rfl, ?_, b1, b2⟩
  simp only [Balanced, total, List.zip_cons_cons, List.zip_nil_right, List.map_cons, List.map_nil, List.sum_cons,
    List.sum_nil, Vec.dot_sub]
  ring

theorem two_interior (s : Cap) (hpre : 1 ≤ s.maxGainPreComp) (hmax : 0 < s.maxGain)
    {r0 r1 : Vec ℝ} (src : Source) (hd : 1 / 1000 ≤ (relative s src).norm)
    (hc : src.pos.norm / (relative s src).norm ≤ s.maxGain) (σ : ℝ) (hσ : σ = 1 ∨ σ = -1)
    (hgap : 1 / 1000 ≤ σ * (s.axis.dot r0 - s.axis.dot r1))
    (h0 : 0 ≤ σ * (s.axis.dot r0 - s.axis.dot (unit (relative s src))))
    (h1 : 0 ≤ σ * (s.axis.dot (unit (relative s src)) - s.axis.dot r1)) (h t : ℝ × ℝ)
    (ht : t = (σ * ((s.axis.dot (unit (relative s src)) - s.axis.dot r1) / (s.axis.dot r0 - s.axis.dot r1)),
      σ * ((s.axis.dot r0 - s.axis.dot (unit (relative s src))) / (s.axis.dot r0 - s.axis.dot r1))))
    (hh : (if s.hfMode then remap t else some t) = some h) (hh1 : |h.1| ≤ 1) (hh2 : |h.2| ≤ 1) :
    two s r0 r1 src = [some (h.1 * (src.pos.norm / (relative s src).norm)),
      some (h.2 * (src.pos.norm / (relative s src).norm))] := by
  unfold two
  simp only [Vec.dot_sub]
  set x0 := s.axis.dot r0
  set x1 := s.axis.dot r1
  set xI := s.axis.dot (unit (relative s src))
  have hsum : xI - x1 + -(xI - x0) = x0 - x1 := by ring
  have habs : |x0 - x1| = σ * (x0 - x1) := by
    rcases hσ with rfl | rfl
    · rw [abs_of_nonneg] <;> linarith
    · rw [abs_of_nonpos] <;> linarith
  have hσ2 : σ * σ = 1 := by rcases hσ with rfl | rfl <;> norm_num
  have hne : x0 - x1 ≠ 0 := by
    intro h0
    rw [h0] at hgap
    norm_num at hgap
  have hσne : σ ≠ 0 := by rintro rfl; norm_num at hσ2
  have hq : ((xI - x1) / (σ * (x0 - x1)), -(xI - x0) / (σ * (x0 - x1))) = t := by
    rw [ht]
    ext
    · simp only
      rw [div_eq_iff (mul_ne_zero hσne hne)]
      field_simp
      linear_combination (-(xI - x1)) * hσ2
    · simp only
      rw [div_eq_iff (mul_ne_zero hσne hne)]
      field_simp
      linear_combination (-(x0 - xI)) * hσ2
  rw [hsum, habs, if_neg (not_lt.2 hgap), hq, hh]
  simp only
  obtain ⟨f1, -, -, e1, -, -, u1⟩ := limit_spec (by linarith : 0 < s.maxGainPreComp) h
  rw [u1 (by linarith) (by linarith)] at e1
  rw [e1, if_neg (not_lt.2 hd)]
  have hcn : 0 ≤ src.pos.norm / (relative s src).norm := by
    have : 0 ≤ src.pos.norm := Real.sqrt_nonneg _
    have : 0 ≤ (relative s src).norm := Real.sqrt_nonneg _
    positivity
  set c := src.pos.norm / (relative s src).norm
  obtain ⟨f2, -, -, e2, -, -, u2⟩ := limit_spec hmax (h.1 * 1 * c, h.2 * 1 * c)
  have k1 : |h.1 * 1 * c| ≤ s.maxGain := by
    rw [mul_one, abs_mul, abs_of_nonneg hcn]
    nlinarith
  have k2 : |h.2 * 1 * c| ≤ s.maxGain := by
    rw [mul_one, abs_mul, abs_of_nonneg hcn]
    nlinarith
  rw [u2 k1 k2] at e2
  rw [e2]
  simp

theorem parts {x0 x1 xI σ : ℝ} (hσ : σ = 1 ∨ σ = -1) (hgap : 1 / 1000 ≤ σ * (x0 - x1)) (h0 : 0 ≤ σ * (x0 - xI))
    (h1 : 0 ≤ σ * (xI - x1)) : 0 ≤ (xI - x1) / (x0 - x1) ∧ 0 ≤ (x0 - xI) / (x0 - x1) ∧
      (xI - x1) / (x0 - x1) + (x0 - xI) / (x0 - x1) = 1 := by
  have hne : x0 - x1 ≠ 0 := by
    intro h0
    rw [h0] at hgap
    norm_num at hgap
  refine ⟨?_, ?_, by field_simp; ring⟩
  · rcases hσ with rfl | rfl
    · exact div_nonneg (by linarith) (by linarith)
    · exact div_nonneg_of_nonpos (by linarith) (by linarith)
  · rcases hσ with rfl | rfl
    · exact div_nonneg (by linarith) (by linarith)
    · exact div_nonneg_of_nonpos (by linarith) (by linarith)

/-- **C58.** Two loudspeakers, standard mode: if the source is between the loudspeakers, as seen along the interaural
axis, and the gain for its distance does not exceed the limit, the total of the gains is the inverse of the distance from
the listener relative to the distance from the origin. Both gains are nonnegative.

Partial: the sign is inverted if the listener faces away (`facing_away_inverts`). -/
theorem cap_two_partial (s : Cap) (hm : s.hfMode = false) (hpre : 1 ≤ s.maxGainPreComp) (hmax : 0 < s.maxGain)
    {r0 r1 : Vec ℝ} (h : s.directions = [r0, r1]) (src : Source) (hd : 1 / 1000 ≤ (relative s src).norm)
    (hc : src.pos.norm / (relative s src).norm ≤ s.maxGain)
    (hgap : 1 / 1000 ≤ s.axis.dot r0 - s.axis.dot r1)
    (h0 : s.axis.dot (unit (relative s src)) ≤ s.axis.dot r0) (h1 : s.axis.dot r1 ≤ s.axis.dot (unit (relative s src))) :
    ∃ g1 g2 : ℝ, gains s src = .ok [some g1, some g2] ∧ 0 ≤ g1 ∧ 0 ≤ g2 ∧
      Balanced s.axis [r0, r1] (unit (relative s src)) [g1, g2] ∧
      g1 + g2 = src.pos.norm / (relative s src).norm := by
  obtain ⟨p1, p2, p3⟩ := parts (.inl rfl) (by linarith) (by linarith) (by linarith)
    (x0 := s.axis.dot r0) (x1 := s.axis.dot r1) (xI := s.axis.dot (unit (relative s src)))
  have key := two_interior s hpre hmax src hd hc 1 (.inl rfl) (by linarith) (by linarith) (by linarith) _ _ rfl
    (by rw [hm]; rfl) (r0 := r0) (r1 := r1) (by simp only [one_mul]; rw [abs_of_nonneg p1]; linarith)
    (by simp only [one_mul]; rw [abs_of_nonneg p2]; linarith)
  have hcn : 0 ≤ src.pos.norm / (relative s src).norm := div_nonneg (Real.sqrt_nonneg _) (Real.sqrt_nonneg _)
  obtain ⟨g1, g2, hg, hb, -⟩ := cap_two_balanced s hm (by linarith) hmax h src
  rw [gains_two h, key] at hg ⊢
  simp only [Outcome.ok.injEq, List.cons.injEq, Option.some.injEq, and_true] at hg
  refine ⟨_, _, rfl, ?_, ?_, ?_, ?_⟩
  · simp only [one_mul]; positivity
  · simp only [one_mul]; positivity
  · rw [hg.1, hg.2]; exact hb
  · simp only [one_mul]
    rw [← add_mul, p3, one_mul]

/-- C58, negation: if the listener faces away from the loudspeakers (the order of loudspeakers and source along the
interaural axis is reversed), the total of the gains is negative: the polarity of the source is inverted. -/
theorem facing_away_inverts (s : Cap) (hm : s.hfMode = false) (hpre : 1 ≤ s.maxGainPreComp) (hmax : 0 < s.maxGain)
    {r0 r1 : Vec ℝ} (h : s.directions = [r0, r1]) (src : Source) (hd : 1 / 1000 ≤ (relative s src).norm)
    (hc : src.pos.norm / (relative s src).norm ≤ s.maxGain)
    (hgap : 1 / 1000 ≤ s.axis.dot r1 - s.axis.dot r0)
    (h0 : s.axis.dot r0 ≤ s.axis.dot (unit (relative s src))) (h1 : s.axis.dot (unit (relative s src)) ≤ s.axis.dot r1) :
    ∃ g1 g2 : ℝ, gains s src = .ok [some g1, some g2] ∧ g1 ≤ 0 ∧ g2 ≤ 0 ∧
      g1 + g2 = -(src.pos.norm / (relative s src).norm) := by
  obtain ⟨p1, p2, p3⟩ := parts (.inr rfl) (by linarith) (by linarith) (by linarith)
    (x0 := s.axis.dot r0) (x1 := s.axis.dot r1) (xI := s.axis.dot (unit (relative s src)))
  have key := two_interior s hpre hmax src hd hc (-1) (.inr rfl) (by linarith) (by linarith) (by linarith) _ _ rfl
    (by rw [hm]; rfl) (r0 := r0) (r1 := r1)
    (by simp only [neg_one_mul, abs_neg]; rw [abs_of_nonneg p1]; linarith)
    (by simp only [neg_one_mul, abs_neg]; rw [abs_of_nonneg p2]; linarith)
  have hcn : 0 ≤ src.pos.norm / (relative s src).norm := div_nonneg (Real.sqrt_nonneg _) (Real.sqrt_nonneg _)
  rw [gains_two h, key]
  refine ⟨_, _, rfl, ?_, ?_, ?_⟩
  · have := mul_nonneg p1 hcn
    simp only
    linarith
  · have := mul_nonneg p2 hcn
    simp only
    linarith
  · simp only
    linear_combination (-(src.pos.norm / (relative s src).norm)) * p3

/-- **C58.** Two loudspeakers, high-frequency mode: if the source is strictly between the loudspeakers as seen along the
interaural axis, the energy of the gains is that of a source at its distance, and the ratio of the gains' energies is the
ratio of the gains in standard mode.

Partial: the gains are NaN if the listener faces away (`high_frequency_nan`), and zero if the source is outside. -/
theorem cap_two_hf_partial (s : Cap) (hm : s.hfMode = true) (hpre : 1 ≤ s.maxGainPreComp) (hmax : 0 < s.maxGain)
    {r0 r1 : Vec ℝ} (h : s.directions = [r0, r1]) (src : Source) (hd : 1 / 1000 ≤ (relative s src).norm)
    (hc : src.pos.norm / (relative s src).norm ≤ s.maxGain)
    (hgap : 1 / 1000 ≤ s.axis.dot r0 - s.axis.dot r1)
    (h0 : s.axis.dot (unit (relative s src)) < s.axis.dot r0) (h1 : s.axis.dot r1 < s.axis.dot (unit (relative s src))) :
    ∃ g1 g2 : ℝ, gains s src = .ok [some g1, some g2] ∧ 0 ≤ g1 ∧ 0 ≤ g2 ∧
      energy [g1, g2] = (src.pos.norm / (relative s src).norm) ^ 2 ∧
      Balanced s.axis [r0, r1] (unit (relative s src)) [g1 ^ 2, g2 ^ 2] := by
  obtain ⟨p1, p2, p3⟩ := parts (.inl rfl) (by linarith) (by linarith) (by linarith)
    (x0 := s.axis.dot r0) (x1 := s.axis.dot r1) (xI := s.axis.dot (unit (relative s src)))
  have q1 : 0 < (s.axis.dot (unit (relative s src)) - s.axis.dot r1) / (s.axis.dot r0 - s.axis.dot r1) :=
    div_pos (by linarith) (by linarith)
  have q2 : 0 < (s.axis.dot r0 - s.axis.dot (unit (relative s src))) / (s.axis.dot r0 - s.axis.dot r1) :=
    div_pos (by linarith) (by linarith)
  have hb1 : s.axis.dot r0 - s.axis.dot r1 ≠ 0 := by linarith
  have hbal : (s.axis.dot (unit (relative s src)) - s.axis.dot r1) / (s.axis.dot r0 - s.axis.dot r1) * s.axis.dot r0 +
      (s.axis.dot r0 - s.axis.dot (unit (relative s src))) / (s.axis.dot r0 - s.axis.dot r1) * s.axis.dot r1 =
      s.axis.dot (unit (relative s src)) := by
    field_simp
    ring
  set p := (s.axis.dot (unit (relative s src)) - s.axis.dot r1) / (s.axis.dot r0 - s.axis.dot r1) with hp
  set q := (s.axis.dot r0 - s.axis.dot (unit (relative s src))) / (s.axis.dot r0 - s.axis.dot r1) with hq
  have hre : remap (1 * p, 1 * q) = some (Real.sqrt p, Real.sqrt q) := by
    unfold remap
    simp only [one_mul]
    rw [if_pos (mul_pos q1 q2), if_neg (not_lt.2 p1), Real.mul_self_sqrt p1, Real.mul_self_sqrt p2, p3]
    simp
  have key := two_interior s hpre hmax src hd hc 1 (.inl rfl) (by linarith) (by linarith) (by linarith)
    (Real.sqrt p, Real.sqrt q) (1 * p, 1 * q) rfl
    (by rw [hm, if_pos rfl, hre]) (r0 := r0) (r1 := r1)
    (by simp only; rw [abs_of_nonneg (Real.sqrt_nonneg _), Real.sqrt_le_one]; linarith)
    (by simp only; rw [abs_of_nonneg (Real.sqrt_nonneg _), Real.sqrt_le_one]; linarith)
  have hcn : 0 ≤ src.pos.norm / (relative s src).norm := div_nonneg (Real.sqrt_nonneg _) (Real.sqrt_nonneg _)
  rw [gains_two h, key]
  refine ⟨_, _, rfl, by positivity, by positivity, ?_, ?_⟩
  · simp only [energy, List.map_cons, List.map_nil, List.sum_cons, List.sum_nil, mul_pow, Real.sq_sqrt p1,
      Real.sq_sqrt p2]
    linear_combination (src.pos.norm / (relative s src).norm) ^ 2 * p3
  · simp only [Balanced, total, List.zip_cons_cons, List.zip_nil_right, List.map_cons, List.map_nil, List.sum_cons,
      List.sum_nil, mul_pow, Real.sq_sqrt p1, Real.sq_sqrt p2]
    linear_combination (src.pos.norm / (relative s src).norm) ^ 2 * hbal -
      (src.pos.norm / (relative s src).norm) ^ 2 * s.axis.dot (unit (relative s src)) * p3

/-- C58, negation: in high-frequency mode, the gains are NaN if the listener faces away from the loudspeakers. -/
theorem high_frequency_nan (s : Cap) (hm : s.hfMode = true)
    {r0 r1 : Vec ℝ} (h : s.directions = [r0, r1]) (src : Source)
    (h0 : s.axis.dot r0 < s.axis.dot (unit (relative s src))) (h1 : s.axis.dot (unit (relative s src)) < s.axis.dot r1) :
    gains s src = .ok [none, none] := by
  rw [gains_two h]
  unfold two
  simp only [hm, if_true, Vec.dot_sub]
  set x0 := s.axis.dot r0
  set x1 := s.axis.dot r1
  set xI := s.axis.dot (unit (relative s src))
  set d := (if |xI - x1 + -(xI - x0)| < 1 / 1000 then (1 / 1000 : ℝ) else |xI - x1 + -(xI - x0)|) with hd
  have hdp : 0 < d := by
    rw [hd]
    split_ifs with h
    · norm_num
    · linarith
  have n1 : (xI - x1) / d < 0 := div_neg_of_neg_of_pos (by linarith) hdp
  have n2 : -(xI - x0) / d < 0 := div_neg_of_neg_of_pos (by linarith) hdp
  have : remap ((xI - x1) / d, -(xI - x0) / d) = none := by
    unfold remap
    rw [if_pos (mul_pos_of_neg_of_neg n1 n2), if_pos n1]
  rw [this]

/-- C58: in high-frequency mode, a source which is not strictly between the loudspeakers, as seen along the interaural
axis, is silent. -/
theorem high_frequency_silent (s : Cap) (hm : s.hfMode = true) (hpre : 0 < s.maxGainPreComp) (hmax : 0 < s.maxGain)
    {r0 r1 : Vec ℝ} (h : s.directions = [r0, r1]) (src : Source)
    (ho : 0 ≤ (s.axis.dot (unit (relative s src)) - s.axis.dot r0) * (s.axis.dot (unit (relative s src)) - s.axis.dot r1)) :
    gains s src = .ok [some 0, some 0] := by
  rw [gains_two h]
  unfold two
  simp only [hm, if_true, Vec.dot_sub]
  set x0 := s.axis.dot r0
  set x1 := s.axis.dot r1
  set xI := s.axis.dot (unit (relative s src))
  set d := (if |xI - x1 + -(xI - x0)| < 1 / 1000 then (1 / 1000 : ℝ) else |xI - x1 + -(xI - x0)|) with hd
  have hdp : 0 < d := by
    rw [hd]
    split_ifs with h
    · norm_num
    · linarith
  have : remap ((xI - x1) / d, -(xI - x0) / d) = some (0, 0) := by
    unfold remap
    rw [if_neg]
    simp only [not_lt]
    have e : (xI - x1) / d * (-(xI - x0) / d) = -((xI - x0) * (xI - x1)) / (d * d) := by
      field_simp
    rw [e]
    exact div_nonpos_of_nonpos_of_nonneg (by linarith) (by positivity)
  rw [this]
  obtain ⟨f1, -, -, e1, -⟩ := limit_spec hpre ((0 : ℝ), (0 : ℝ))
  simp only [e1, zero_mul]
  obtain ⟨f2, -, -, e2, -⟩ := limit_spec hmax ((0 : ℝ), (0 : ℝ))
  simp only [e2, zero_mul]

/-- Two loudspeakers on the unit circle, listener at the origin. -/
noncomputable def pair (axis : Vec ℝ) (hf : Bool) : Cap := ⟨[⟨0, 1, 0⟩, ⟨0, -1, 0⟩], ⟨0, 0, 0⟩, axis, hf, 3 / 2, 10⟩

theorem pair_directions (axis : Vec ℝ) (hf : Bool) : (pair axis hf).directions = [⟨0, 1, 0⟩, ⟨0, -1, 0⟩] := by
  simp only [Cap.directions, pair, List.map_cons, List.map_nil, sub_origin]
  rw [unit_of_one (by norm_num), unit_of_one (by norm_num)]

/-- C58: the hypotheses of `cap_two_partial` and `cap_two_hf_partial` are met by a listener who looks along the x axis
(interaural axis y), those of `facing_away_inverts` and `high_frequency_nan` by one who looks the other way. -/
example (hf : Bool) : ∃ src : Source,
    (pair ⟨0, 1, 0⟩ hf).directions = [⟨0, 1, 0⟩, ⟨0, -1, 0⟩] ∧
    (1 / 1000 ≤ (relative (pair ⟨0, 1, 0⟩ hf) src).norm) ∧
    src.pos.norm / (relative (pair ⟨0, 1, 0⟩ hf) src).norm ≤ (pair ⟨0, 1, 0⟩ hf).maxGain ∧
    (1 / 1000 ≤ (⟨0, 1, 0⟩ : Vec ℝ).dot ⟨0, 1, 0⟩ - (⟨0, 1, 0⟩ : Vec ℝ).dot ⟨0, -1, 0⟩) ∧
    (⟨0, 1, 0⟩ : Vec ℝ).dot (unit (relative (pair ⟨0, 1, 0⟩ hf) src)) < (⟨0, 1, 0⟩ : Vec ℝ).dot ⟨0, 1, 0⟩ ∧
    (⟨0, 1, 0⟩ : Vec ℝ).dot ⟨0, -1, 0⟩ < (⟨0, 1, 0⟩ : Vec ℝ).dot (unit (relative (pair ⟨0, 1, 0⟩ hf) src)) ∧
    (⟨0, -1, 0⟩ : Vec ℝ).dot ⟨0, 1, 0⟩ < (⟨0, -1, 0⟩ : Vec ℝ).dot (unit (relative (pair ⟨0, -1, 0⟩ hf) src)) ∧
    (⟨0, -1, 0⟩ : Vec ℝ).dot (unit (relative (pair ⟨0, -1, 0⟩ hf) src)) < (⟨0, -1, 0⟩ : Vec ℝ).dot ⟨0, -1, 0⟩ := by
  have h1 : relative (pair ⟨0, 1, 0⟩ hf) ⟨⟨1, 0, 0⟩, false⟩ = ⟨1, 0, 0⟩ := by simp [relative, pair, sub_origin]
  have h2 : relative (pair ⟨0, -1, 0⟩ hf) ⟨⟨1, 0, 0⟩, false⟩ = ⟨1, 0, 0⟩ := by simp [relative, pair, sub_origin]
  refine ⟨⟨⟨1, 0, 0⟩, false⟩, pair_directions _ _, ?_⟩
  rw [h1, h2, norm_one (v := ⟨1, 0, 0⟩) (by norm_num), unit_of_one (v := ⟨1, 0, 0⟩) (by norm_num)]
  norm_num [pair, Vec.dot]

/-! ### Orientation of the head -/

/-- **C58.** The interaural axis is a unit vector, namely the y axis turned by the orientation of the head, with pitch and
roll taken in the opposite sense to positions elsewhere in the library. -/
theorem aural_axis (yaw pitch roll : ℝ) : (auralAxis yaw pitch roll).norm = 1 ∧
    auralAxis yaw pitch roll = (⟨0, 1, 0⟩ : Vec ℝ).rotate (Quat.fromYPR yaw (-pitch) (-roll)) := by
  constructor
  · refine norm_one ?_
    simp only [auralAxis]
    have hy := Real.sin_sq_add_cos_sq yaw
    have hp := Real.sin_sq_add_cos_sq pitch
    have hr := Real.sin_sq_add_cos_sq roll
    linear_combination (Real.sin pitch ^ 2 * Real.sin roll ^ 2 + Real.cos roll ^ 2) * hy + Real.sin roll ^ 2 * hp + hr
  · rw [(ypr_rotates yaw (-pitch) (-roll)).2]
    simp only [aboutX, aboutY, aboutZ, auralAxis, Real.sin_neg, Real.cos_neg]
    ext <;> simp only <;> ring

/-- C58, negation: for a tilted head, the axis is not that of the orientation which a listener position with the same
angles denotes. -/
theorem aural_axis_differs (yaw pitch roll : ℝ) (h : Real.cos pitch * Real.sin roll ≠ 0) :
    auralAxis yaw pitch roll ≠ (⟨0, 1, 0⟩ : Vec ℝ).rotate (Quat.fromYPR yaw pitch roll) := by
  intro e
  rw [(ypr_rotates yaw pitch roll).2] at e
  have := congrArg Vec.z e
  simp only [aboutX, aboutY, aboutZ, auralAxis] at this
  apply h
  linarith

/-- C58, negation: before the first listener position the axis points along x, that is, the listener looks to the side.
-/
theorem initial_axis (eps : ℝ) (speakers : List (Vec ℝ)) (hf : Bool) :
    ∃ s, init eps speakers hf none = .ok s ∧ s.cap.listener = ⟨0, 0, 0⟩ ∧ s.cap.axis ≠ auralAxis 0 0 0 := by
  refine ⟨_, rfl, rfl, ?_⟩
  simp [auralAxis]

/-! ### High-frequency gains -/

theorem invOf_fst {eps : ℝ} {v : CapVbap} (h2 : v.base.is2D = false) (hi : v.arrayInfinite = false)
    (t : Nat × Nat × Nat) : (invOf eps v t).map Prod.fst = Vbap.invOf eps v.base t := by
  unfold invOf corners Vbap.invOf Vbap.corner Vbap.thirdCorner Vbap.corner
  rw [h2, hi]
  simp only [Bool.false_eq_true, if_false]
  cases v.base.positions[t.1]? with
  | none => rfl
  | some l1 =>
    cases v.base.positions[t.2.1]? with
    | none => rfl
    | some l2 =>
      cases v.base.positions[t.2.2]? with
      | none => rfl
      | some l3 => rfl

theorem mapM_fst {eps : ℝ} {v : CapVbap} (h2 : v.base.is2D = false) (hi : v.arrayInfinite = false)
    (ts : List (Nat × Nat × Nat)) : (ts.mapM (invOf eps v)).map (List.map Prod.fst) = ts.mapM (Vbap.invOf eps v.base) := by
  induction ts with
  | nil => rfl
  | cons t ts ih =>
    simp only [List.mapM_cons, ← invOf_fst h2 hi t]
    cases invOf eps v t with
    | none => rfl
    | some y =>
      simp only [Option.map_some, Option.bind_eq_bind, Option.bind_some, ← ih]
      cases ts.mapM (invOf eps v) with
      | none => rfl
      | some l => rfl

theorem setListener_base {eps : ℝ} {v0 v : CapVbap} {p : Vec ℝ} (hv : v0.setListener eps p = .ok v)
    (h2 : v0.base.is2D = false) (hi : v0.arrayInfinite = false) :
    v0.base.setListener eps p = .ok v.base ∧ v.fade2D = v0.fade2D ∧ v.near.length = v.base.inv.length ∧
      ∃ l, v0.base.triplets.mapM (invOf eps { v0 with base := { v0.base with listener := p } }) = some l ∧
        v.near = l.map Prod.snd := by
  unfold CapVbap.setListener at hv
  dsimp only at hv
  have hm := mapM_fst (eps := eps) (v := { v0 with base := { v0.base with listener := p } }) h2 hi v0.base.triplets
  cases hc : v0.base.triplets.mapM (invOf eps { v0 with base := { v0.base with listener := p } }) with
  | none => rw [hc] at hv; cases hv
  | some l =>
    rw [hc] at hv hm
    injection hv with hv
    subst hv
    refine ⟨?_, rfl, by simp, l, rfl, rfl⟩
    unfold Vbap.Vbap.setListener
    dsimp only
    rw [← hm]
    rfl

/-- With the default setting, no triplet counts as near. -/
theorem near_false {eps : ℝ} {v0 v : CapVbap} {p : Vec ℝ} (hv : v0.setListener eps p = .ok v)
    (h2 : v0.base.is2D = false) (hi : v0.arrayInfinite = false) (hct : v0.cosTheta ≤ -1) (heps : 0 < eps)
    (hd : ∀ l ∈ v0.base.positions, eps ≤ (l.sub p).norm) : ∀ b ∈ v.near, b = false := by
  obtain ⟨-, -, -, l, hl, hn⟩ := setListener_base hv h2 hi
  intro b hb
  rw [hn] at hb
  obtain ⟨y, hy, rfl⟩ := List.mem_map.1 hb
  obtain ⟨k, hk⟩ := List.getElem?_of_mem hy
  obtain ⟨hlen, hget⟩ := Vbap.mapM_get hl
  have hkl : k < v0.base.triplets.length := by
    rw [← hlen]; exact (List.getElem?_eq_some_iff.mp hk).1
  obtain ⟨y', hy', hk'⟩ := hget k _ (List.getElem?_eq_getElem hkl)
  rw [hk] at hk'
  injection hk' with hk'
  subst hk'
  unfold invOf corners at hy'
  rw [h2, hi] at hy'
  simp only [Bool.false_eq_true, if_false] at hy'
  cases h1 : v0.base.positions[v0.base.triplets[k].1]? with
  | none => rw [h1] at hy'; cases hy'
  | some l1 =>
    cases h2 : v0.base.positions[v0.base.triplets[k].2.1]? with
    | none => rw [h1, h2] at hy'; cases hy'
    | some l2 =>
      cases h3 : v0.base.positions[v0.base.triplets[k].2.2]? with
      | none => rw [h1, h2, h3] at hy'; cases hy'
      | some l3 =>
        rw [h1, h2, h3] at hy'
        simp only [Option.bind_eq_bind, Option.bind_some, Option.map_some, Option.some.injEq] at hy'
        rw [← hy']
        simp only [decide_eq_false_iff_not, not_lt]
        have n1 := hd _ (List.mem_of_getElem? h1)
        have n2 := hd _ (List.mem_of_getElem? h2)
        rw [Vbap.normalise_eq_direction n1, Vbap.normalise_eq_direction n2]
        have d1 := Vbap.direction_norm (lt_of_lt_of_le heps n1)
        have d2 := Vbap.direction_norm (lt_of_lt_of_le heps n2)
        refine hct.trans ?_
        nlinarith [sq_nonneg ((Vbap.direction p l1).x + (Vbap.direction p l2).x),
          sq_nonneg ((Vbap.direction p l1).y + (Vbap.direction p l2).y), sq_nonneg (Vbap.direction p l1).z,
          sq_nonneg (Vbap.direction p l2).z]

theorem search_inside (is2D : Bool) (s : Vec ℝ) : ∀ (is : List Vbap.Inv) (ns : List Bool) (j : ℕ) (c : Option Vbap.Found),
    ns.length = is.length → (∀ b ∈ ns, b = false) →
    (∃ (k : ℕ) (i : Vbap.Inv), is[k]? = some i ∧ Vbap.Inside is2D (Vbap.gainsOf s i (j + k))) →
    search is2D s is ns j = Vbap.search is2D s is j c
  | [], _, _, _, _, _, h => by obtain ⟨k, i, hk, -⟩ := h; simp at hk
  | _ :: _, [], _, _, hl, _, _ => by simp at hl
  | i :: is, n :: ns, j, c, hl, hn, h => by
    have hnf : n = false := hn n (by simp)
    subst hnf
    by_cases hi : Vbap.Inside is2D (Vbap.gainsOf s i j)
    · unfold search Vbap.search
      simp only
      have hi' : (Vbap.gainsOf s i j).g1 ≥ 0 ∧ (Vbap.gainsOf s i j).g2 ≥ 0 ∧ ((Vbap.gainsOf s i j).g3 ≥ 0 ∨ is2D = true) := hi
      rw [if_pos (.inl hi), if_pos hi']
      congr 1
      split_ifs with h0
      · have a1 : (Vbap.gainsOf s i j).g1 = 0 := le_antisymm h0.1 hi.1
        have a2 : (Vbap.gainsOf s i j).g2 = 0 := le_antisymm h0.2 hi.2.1
        rw [a1, a2, neg_zero]
        conv_rhs => rw [show Vbap.gainsOf s i j = ⟨(Vbap.gainsOf s i j).j, (Vbap.gainsOf s i j).g1,
          (Vbap.gainsOf s i j).g2, (Vbap.gainsOf s i j).g3⟩ from rfl, a1, a2]
      · rfl
    · have hex : ∃ (k : ℕ) (i : Vbap.Inv), is[k]? = some i ∧ Vbap.Inside is2D (Vbap.gainsOf s i (j + 1 + k)) := by
        obtain ⟨k, i', hk, hin⟩ := h
        cases k with
        | zero =>
          simp only [List.getElem?_cons_zero, Option.some.injEq] at hk
          subst hk
          exact absurd hin hi
        | succ k => exact ⟨k, i', by simpa using hk, by rw [Nat.add_assoc, Nat.add_comm 1 k]; exact hin⟩
      have ih := fun c => search_inside is2D s is ns (j + 1) c (by simpa using hl) (fun b hb => hn b (by simp [hb])) hex
      unfold search Vbap.search
      simp only
      rw [if_neg (by
        rintro (h | ⟨-, -, -, h⟩)
        · exact hi h
        · cases h), if_neg (show ¬ ((Vbap.gainsOf s i j).g1 ≥ 0 ∧ (Vbap.gainsOf s i j).g2 ≥ 0 ∧
          ((Vbap.gainsOf s i j).g3 ≥ 0 ∨ is2D = true)) from hi)]
      cases c with
      | none => split_ifs <;> exact ih _
      | some b => simp only; split_ifs <;> exact ih _

theorem search_outside (is2D : Bool) (s : Vec ℝ) : ∀ (is : List Vbap.Inv) (ns : List Bool) (j : ℕ),
    (∀ b ∈ ns, b = false) →
    (∀ (k : ℕ) (i : Vbap.Inv), is[k]? = some i → ¬ Vbap.Inside is2D (Vbap.gainsOf s i (j + k))) →
    search is2D s is ns j = none
  | [], _, _, _, _ => by unfold search; rfl
  | _ :: _, [], _, _, _ => by unfold search; rfl
  | i :: is, n :: ns, j, hn, h => by
    have hnf : n = false := hn n (by simp)
    subst hnf
    unfold search
    simp only
    rw [if_neg (by
      rintro (h' | ⟨-, -, -, h'⟩)
      · exact h 0 i rfl h'
      · cases h')]
    exact search_outside is2D s is ns (j + 1) (fun b hb => hn b (by simp [hb])) fun k i' hk => by
      rw [Nat.add_assoc, Nat.add_comm 1 k]
      exact h (k + 1) i' (by simpa using hk)

theorem vbap_inv {eps : ℝ} {v0 v : Vbap.Vbap} {p : Vec ℝ} (hv : v0.setListener eps p = .ok v) (h2d : v0.is2D = false)
    (hd : ∀ l ∈ v0.positions, eps ≤ (l.sub p).norm)
    (hp : ∀ t ∈ v0.triplets, Vbap.Proper v0.positions p t) (j : ℕ) (t : ℕ × ℕ × ℕ) (ht : v0.triplets[j]? = some t) :
    v.inv[j]? = some (Vbap.inverse (Vbap.direction p (v0.positions.getD t.1 ⟨0, 0, 0⟩))
      (Vbap.direction p (v0.positions.getD t.2.1 ⟨0, 0, 0⟩)) (Vbap.direction p (v0.positions.getD t.2.2 ⟨0, 0, 0⟩))) := by
  obtain ⟨-, -, -, -, -, -, -, v8⟩ := Vbap.setListener_spec hv
  obtain ⟨y, hy1, hy2⟩ := v8 j t ht
  obtain ⟨b1, b2, b3, -⟩ := hp t (List.mem_of_getElem? ht)
  rw [hy2, ← hy1]
  have c1 := Vbap.corner_eq (v := { v0 with listener := p }) (eps := eps) b1 hd
  have c2 := Vbap.corner_eq (v := { v0 with listener := p }) (eps := eps) b2 hd
  have c3 := Vbap.corner_eq (v := { v0 with listener := p }) (eps := eps) b3 hd
  have c4 : Vbap.thirdCorner eps { v0 with listener := p } t.2.2 = Vbap.corner eps { v0 with listener := p } t.2.2 :=
    if_neg (by simp [h2d])
  unfold Vbap.invOf
  rw [c4, c1, c2, c3]

theorem cap_relative {v : CapVbap} (h2 : v.base.is2D = false) (src : Vec ℝ) (pw : Bool) :
    v.relative src pw = Vbap.relative v.base src pw := by
  unfold CapVbap.relative Vbap.relative
  rw [h2]
  rfl

/-- **C58.** High-frequency gains of a three-dimensional array, default settings: a source in the cone of some triplet
has nonnegative gains which vanish outside one triplet, and the gain-weighted loudspeaker directions sum to the source.
-/
theorem vbip_inside {eps : ℝ} {v0 v : CapVbap} {p : Vec ℝ} (hv : v0.setListener eps p = .ok v)
    (h2 : v0.base.is2D = false) (hi : v0.arrayInfinite = false) (hct : v0.cosTheta ≤ -1) (heps : 0 < eps)
    (hd : ∀ l ∈ v0.base.positions, eps ≤ (l.sub p).norm)
    (hp : ∀ t ∈ v0.base.triplets, Vbap.Proper v0.base.positions p t) (src : Vec ℝ) (planeWave : Bool) (s : Vec ℝ)
    (hs : s = if planeWave then src else src.sub p)
    (hin : ∃ t ∈ v0.base.triplets, Vbap.InCone v0.base.positions p t s) :
    ∃ g, plain v src planeWave = .ok g ∧ (∀ i, 0 ≤ g i) ∧ Vbap.SumsTo v0.base.positions p g s ∧
      ∃ t ∈ v0.base.triplets, Vbap.InCone v0.base.positions p t s ∧
        ∀ i, i ≠ t.1 → i ≠ t.2.1 → i ≠ t.2.2 → g i = 0 := by
  obtain ⟨hb, -, hlen, -⟩ := setListener_base hv h2 hi
  have hn := near_false hv h2 hi hct heps hd
  obtain ⟨-, -, v3, v4, -, v6, -⟩ := Vbap.setListener_spec hb
  have hex : ∃ (k : ℕ) (i : Vbap.Inv), v.base.inv[k]? = some i ∧ Vbap.Inside false (Vbap.gainsOf s i (0 + k)) := by
    obtain ⟨t, ht, a, b, c, ha, hb', hc, hcomb⟩ := hin
    obtain ⟨k, hk⟩ := List.getElem?_of_mem ht
    refine ⟨k, _, vbap_inv hb h2 hd hp k t hk, ?_⟩
    rw [Vbap.gainsOf_unique (hp t ht).2.2.2 hcomb]
    exact ⟨ha, hb', .inl hc⟩
  have hrel : v.relative src planeWave = s := by
    rw [cap_relative (by rw [v4, h2])]
    unfold Vbap.relative
    rw [v4, h2, v6, hs]
    simp
  have he : plain v src planeWave = Vbap.plain v.base src planeWave := by
    have hse := search_inside false s v.base.inv v.near 0 none hlen hn hex
    unfold plain Vbap.plain
    rw [hrel, v4, h2, hse, ← cap_relative (by rw [v4, h2]), hrel]
    cases hf : Vbap.search false s v.base.inv 0 none with
    | some f => rfl
    | none =>
      obtain ⟨k, i, -, -, h', -⟩ := Vbap.search_inside false s v.base.inv 0 none hex
      rw [hf] at h'
      cases h'
  rw [he]
  exact Vbap.inside_exact hb h2 hd hp src planeWave s hs hin

/-- C58, high-frequency gains: a source outside of the cones of all triplets is silent. -/
theorem vbip_outside {eps : ℝ} {v0 v : CapVbap} {p : Vec ℝ} (hv : v0.setListener eps p = .ok v)
    (h2 : v0.base.is2D = false) (hi : v0.arrayInfinite = false) (hct : v0.cosTheta ≤ -1) (heps : 0 < eps)
    (hd : ∀ l ∈ v0.base.positions, eps ≤ (l.sub p).norm)
    (hp : ∀ t ∈ v0.base.triplets, Vbap.Proper v0.base.positions p t) (src : Vec ℝ) (planeWave : Bool) (s : Vec ℝ)
    (hs : s = if planeWave then src else src.sub p)
    (hout : ∀ t ∈ v0.base.triplets, ¬ Vbap.InCone v0.base.positions p t s) :
    plain v src planeWave = .ok fun _ => 0 := by
  obtain ⟨hb, -, hlen, -⟩ := setListener_base hv h2 hi
  have hn := near_false hv h2 hi hct heps hd
  obtain ⟨-, -, v3, v4, -, v6, v7, -⟩ := Vbap.setListener_spec hb
  have hrel : v.relative src planeWave = s := by
    rw [cap_relative (by rw [v4, h2])]
    unfold Vbap.relative
    rw [v4, h2, v6, hs]
    simp
  unfold plain
  rw [hrel, v4, h2, search_outside false s v.base.inv v.near 0 hn]
  intro k i hk hin
  have hkl : k < v0.base.triplets.length := by
    rw [← v7]; exact (List.getElem?_eq_some_iff.mp hk).1
  have htk := List.getElem?_eq_getElem hkl
  have ht := List.getElem_mem hkl
  generalize v0.base.triplets[k] = t at htk ht
  have e := vbap_inv hb h2 hd hp k t htk
  rw [hk] at e
  injection e with e
  rw [e] at hin
  obtain ⟨g1, g2, g3⟩ := hin
  refine hout t ht ⟨_, _, _, g1, g2, ?_, Vbap.gainsOf_combination (hp t ht).2.2.2 s (0 + k)⟩
  rcases g3 with g3 | g3
  · exact g3
  · cases g3

/-- C58, negation: two-dimensional arrays which are loaded from a file have an invalid third index in each pair; the
position of this loudspeaker is accessed regardless. -/
theorem vbip_2D_undefined (eps : ℝ) (v : CapVbap) (p : Vec ℝ) (t : ℕ × ℕ × ℕ) (ht : t ∈ v.base.triplets)
    (h3 : v.base.positions.length ≤ t.2.2) : v.setListener eps p = .ub := by
  unfold CapVbap.setListener
  dsimp only
  cases hm : v.base.triplets.mapM (invOf eps { v with base := { v.base with listener := p } }) with
  | none => rfl
  | some l =>
    obtain ⟨k, hk⟩ := List.getElem?_of_mem ht
    obtain ⟨y, hy, -⟩ := (Vbap.mapM_get hm).2 k t hk
    unfold invOf corners at hy
    dsimp only at hy
    rw [List.getElem?_eq_none h3] at hy
    cases h1 : v.base.positions[t.1]? with
    | none => rw [h1] at hy; cases hy
    | some l1 =>
      cases h2 : v.base.positions[t.2.1]? with
      | none => rw [h1, h2] at hy; cases hy
      | some l2 => rw [h1, h2] at hy; cases hy

/-- The octahedron's upper right front triangle. -/
noncomputable def triangle : CapVbap :=
  ⟨⟨[⟨1, 0, 0⟩, ⟨0, 1, 0⟩, ⟨0, 0, 1⟩], 3, [(0, 1, 2)], false, fun _ _ => 0, ⟨0, 0, 0⟩, []⟩, false, false, -1, []⟩

/-- C58: the hypotheses of `vbip_inside` and `vbip_outside` are met. -/
example : ∃ v, triangle.setListener (1 / 1000) ⟨0, 0, 0⟩ = .ok v ∧
    (∀ l ∈ triangle.base.positions, 1 / 1000 ≤ (l.sub ⟨0, 0, 0⟩).norm) ∧
    (∀ t ∈ triangle.base.triplets, Vbap.Proper triangle.base.positions ⟨0, 0, 0⟩ t) ∧
    (∃ t ∈ triangle.base.triplets, Vbap.InCone triangle.base.positions ⟨0, 0, 0⟩ t ⟨1, 2, 3⟩) ∧
    ∀ t ∈ triangle.base.triplets, ¬ Vbap.InCone triangle.base.positions ⟨0, 0, 0⟩ t ⟨1, 2, -3⟩ := by
  have n1 : (⟨1, 0, 0⟩ : Vec ℝ).norm = 1 := norm_one (by norm_num)
  have n2 : (⟨0, 1, 0⟩ : Vec ℝ).norm = 1 := norm_one (by norm_num)
  have n3 : (⟨0, 0, 1⟩ : Vec ℝ).norm = 1 := norm_one (by norm_num)
  have d1 : Vbap.direction ⟨0, 0, 0⟩ ⟨1, 0, 0⟩ = ⟨1, 0, 0⟩ := by simp [Vbap.direction, sub_origin, n1, Vec.scale]
  have d2 : Vbap.direction ⟨0, 0, 0⟩ ⟨0, 1, 0⟩ = ⟨0, 1, 0⟩ := by simp [Vbap.direction, sub_origin, n2, Vec.scale]
  have d3 : Vbap.direction ⟨0, 0, 0⟩ ⟨0, 0, 1⟩ = ⟨0, 0, 1⟩ := by simp [Vbap.direction, sub_origin, n3, Vec.scale]
  refine ⟨_, rfl, ?_, ?_, ?_, ?_⟩
  · simp only [triangle, List.mem_cons, List.not_mem_nil, or_false, sub_origin]
    rintro l (rfl | rfl | rfl)
    · rw [n1]; norm_num
    · rw [n2]; norm_num
    · rw [n3]; norm_num
  · simp [triangle, Vbap.Proper, d1, d2, d3, Vbap.triple]
  · exact ⟨(0, 1, 2), by simp [triangle], 1, 2, 3, by norm_num, by norm_num, by norm_num, by
      simp [triangle, Vbap.Combination, d1, d2, d3]⟩
  · simp only [triangle, List.mem_singleton, forall_eq]
    rintro ⟨a, b, c, ha, hb, hc, h1, h2, h3⟩
    simp [d1, d2, d3] at h3
    linarith

/-! ### Scenes -/

theorem gains_length {s : Cap} {src : Source} {g : List (Option ℝ)} (h : gains s src = .ok g) :
    g.length = s.speakers.length := by
  have hl : s.directions.length = s.speakers.length := by simp [Cap.directions]
  rw [← hl]
  unfold gains at h
  match hd : s.directions with
  | [] => rw [hd] at h; cases h
  | [_] => rw [hd] at h; injection h with h; subst h; rfl
  | [r0, r1] =>
    rw [hd] at h
    injection h with h
    subst h
    unfold two
    simp only
    split <;> rfl
  | a :: b :: c :: r =>
    rw [hd] at h
    injection h with h
    subst h
    rw [← hd]
    unfold multi
    simp only
    split_ifs <;> simp

theorem gains_total {s : Cap} (h : s.speakers ≠ []) (src : Source) : ∃ g, gains s src = .ok g := by
  have hl : s.directions.length = s.speakers.length := by simp [Cap.directions]
  unfold gains
  match hd : s.directions with
  | [] =>
    rw [hd] at hl
    exact absurd (List.length_eq_zero_iff.1 hl.symm) h
  | [_] => exact ⟨_, rfl⟩
  | [r0, r1] => exact ⟨_, rfl⟩
  | a :: b :: c :: r => exact ⟨_, rfl⟩

theorem lfLoop_total {s : Cap} (hs : s.speakers ≠ []) (src : Nat → Source) (level : Nat → ℝ) (n : Nat) (m) :
    ∃ m', lfLoop s src level n m = .ok m' := by
  induction n generalizing m with
  | zero => exact ⟨m, rfl⟩
  | succ n ih =>
    obtain ⟨g, hg⟩ := gains_total hs (src n)
    unfold lfLoop
    rw [hg]
    exact ih _

theorem lfLoop_spec {s : Cap} {src : Nat → Source} {level : Nat → ℝ} : ∀ (n : Nat) (m m' : Nat → Nat → Option ℝ),
    lfLoop s src level n m = .ok m' →
    (∀ c, n ≤ c → ∀ r, m' r c = m r c) ∧
      ∀ c < n, ∃ g, gains s (src c) = .ok g ∧ ∀ r < s.speakers.length, m' r c = (g.getD r none).map fun x => level c * x
  | 0, m, m', h => by
    unfold lfLoop at h
    injection h with h
    subst h
    simp
  | n + 1, m, m', h => by
    unfold lfLoop at h
    cases hg : gains s (src n) with
    | throw e => rw [hg] at h; cases h
    | ub => rw [hg] at h; cases h
    | ok g =>
      rw [hg] at h
      simp only at h
      obtain ⟨h1, h2⟩ := lfLoop_spec n _ m' h
      refine ⟨?_, ?_⟩
      · intro c hc r
        rw [h1 c (by omega) r, if_neg]
        omega
      · intro c hc
        by_cases e : c = n
        · subst e
          refine ⟨g, hg, fun r hr => ?_⟩
          rw [h1 c (le_refl _) r]
          simp [hr]
        · exact h2 c (by omega)

theorem hfLoop_spec {eps : ℝ} {v : CapVbap} {src : Nat → Source} {level : Nat → ℝ} :
    ∀ (n : Nat) (m m' : Nat → Nat → Option ℝ), hfLoop eps v src level n m = .ok m' →
    (∀ c, n ≤ c → ∀ r, m' r c = m r c) ∧
      ∀ c < n, ∃ g, v.gainsUnNormalised (src c).pos (src c).infinite = .ok g ∧
        ∀ r < v.base.regular, m' r c = some (level c / max (Real.sqrt (energy g)) eps * g.getD r 0)
  | 0, m, m', h => by
    unfold hfLoop at h
    injection h with h
    subst h
    simp
  | n + 1, m, m', h => by
    unfold hfLoop at h
    cases hg : v.gainsUnNormalised (src n).pos (src n).infinite with
    | throw e => rw [hg] at h; cases h
    | ub => rw [hg] at h; cases h
    | ok g =>
      rw [hg] at h
      simp only [foldl_sq, zero_add] at h
      obtain ⟨h1, h2⟩ := hfLoop_spec n _ m' h
      refine ⟨?_, ?_⟩
      · intro c hc r
        rw [h1 c (by omega) r, if_neg]
        omega
      · intro c hc
        by_cases e : c = n
        · subst e
          refine ⟨g, hg, fun r hr => ?_⟩
          rw [h1 c (le_refl _) r]
          simp [hr]
        · exact h2 c (by omega)

theorem assign_append (n : Nat) (a b : List Obj) (r : (Nat → Source) × (Nat → ℝ)) :
    assign n (a ++ b) r = assign n b (assign n a r) := by
  induction a generalizing r with
  | nil => rfl
  | cons o a ih =>
    rw [List.cons_append]
    conv_lhs => unfold assign
    conv_rhs => rw [assign]
    split
    · split
      · exact ih _
      · split <;> exact ih _
    · exact ih _

theorem assign_one_other (n : Nat) (o : Obj) (r : (Nat → Source) × (Nat → ℝ)) (c : Nat) (h : o.channels ≠ [c]) :
    (assign n [o] r).1 c = r.1 c ∧ (assign n [o] r).2 c = r.2 c := by
  unfold assign
  split
  · rename_i ch hc
    have hne : c ≠ ch := by
      rintro rfl
      exact h hc
    split
    · exact ⟨rfl, rfl⟩
    · split <;> simp [assign, Function.update_of_ne hne]
  · exact ⟨rfl, rfl⟩

/-- The level which is used for an object. -/
def usedLevel (o : Obj) : ℝ :=
  match o.kind with
  | .other => 0
  | _ => 1

/-- Types of objects which have a position or direction. -/
def Located (o : Obj) : Prop := o.kind ≠ .other

theorem assign_one_self (n : Nat) (o : Obj) (r : (Nat → Source) × (Nat → ℝ)) (c : Nat) (h : o.channels = [c])
    (hc : c < n) : (Located o → (assign n [o] r).1 c = (sourceOf o).1) ∧ (assign n [o] r).2 c = usedLevel o := by
  unfold assign
  rw [h]
  simp only
  rw [if_neg (not_le.2 hc)]
  unfold Located sourceOf usedLevel
  cases hk : o.kind with
  | point pos => simp [assign]
  | pointDiffuse pos d => simp [assign]
  | plane az el =>
    simp only [assign, Function.update_self, ne_eq, reduceCtorEq, not_false_eq_true, forall_const,
      Panning.spherical2cartesian, mul_one, and_true]
    have e1 : az * (Real.pi / 180) = az / 180 * Real.pi := by ring
    have e2 : el * (Real.pi / 180) = el / 180 * Real.pi := by ring
    rw [e1, e2]
  | other => simp [assign]

theorem assigned_spec (n : Nat) (scene : List Obj) (c : Nat) (hc : c < n) :
    match driver scene c with
    | none => (assigned n scene).1 c = ⟨⟨1, 0, 0⟩, false⟩ ∧ (assigned n scene).2 c = 0
    | some o => (Located o → (assigned n scene).1 c = (sourceOf o).1) ∧ (assigned n scene).2 c = usedLevel o := by
  unfold assigned
  induction scene using List.reverseRecOn with
  | nil => simp [driver, assign]
  | append_singleton scene o ih =>
    rw [assign_append]
    by_cases h : o.channels = [c]
    · have : driver (scene ++ [o]) c = some o := by simp [driver, h]
      rw [this]
      exact assign_one_self n o _ c h hc
    · have : driver (scene ++ [o]) c = driver scene c := by simp [driver, h]
      rw [this]
      obtain ⟨e1, e2⟩ := assign_one_other n o
        (assign n scene (fun _ => ⟨⟨1, 0, 0⟩, false⟩, fun _ => 0)) c h
      rw [e1, e2]
      exact ih

theorem energy_scale (k : ℝ) (g : List ℝ) : energy (g.map fun x => k * x) = k ^ 2 * energy g := by
  induction g with
  | nil => simp [energy]
  | cons x g ih =>
    simp only [energy, List.map_cons, List.sum_cons] at ih ⊢
    rw [ih]
    ring

theorem energy_nonneg (g : List ℝ) : 0 ≤ energy g := Vbap.power_nonneg g

theorem reg_length {v : CapVbap} {p : Vec ℝ} {b : Bool} {g : List ℝ} (h : v.gainsUnNormalised p b = .ok g) :
    g.length = v.base.regular := by
  unfold CapVbap.gainsUnNormalised at h
  cases hp : plain v p b with
  | ok g' => rw [hp] at h; injection h with h; subst h; simp
  | throw e => rw [hp] at h; cases h
  | ub => rw [hp] at h; cases h

theorem follow_spec {eps : ℝ} {s f : State} (h : follow eps s = .ok f) :
    f.scene = s.scene ∧ f.sceneChanged = s.sceneChanged ∧ f.listener = none ∧ f.lf = s.lf ∧ f.hf = s.hf ∧
      f.cap.speakers = s.cap.speakers ∧
      (match s.listener with
        | none => f.cap = s.cap ∧ f.vbip = s.vbip
        | some (p, yaw, pitch, roll) => f.cap = { s.cap with listener := p, axis := auralAxis yaw pitch roll }) := by
  unfold follow at h
  cases hl : s.listener with
  | none =>
    rw [hl] at h
    injection h with h
    subst h
    simp [hl]
  | some q =>
    obtain ⟨p, yaw, pitch, roll⟩ := q
    rw [hl] at h
    simp only at h
    cases hv : s.vbip with
    | none =>
      rw [hv] at h
      injection h with h
      subst h
      simp
    | some v =>
      rw [hv] at h
      simp only at h
      cases hs : v.setListener eps p with
      | ok v' =>
        rw [hs] at h
        injection h with h
        subst h
        simp
      | throw e => rw [hs] at h; cases h
      | ub => rw [hs] at h; cases h

/-- `process()` after a new scene. -/
theorem process_new {eps : ℝ} {n : Nat} {s s' : State} {scene : List Obj}
    (h : runAll eps n s [.scene scene, .process] = .ok s') :
    ∃ f, follow eps { s with scene := scene, sceneChanged := true } = .ok f ∧
      lfLoop f.cap (assigned n scene).1 (assigned n scene).2 n (fun _ _ => some 0) = .ok s'.lf ∧
      s'.cap = f.cap ∧ s'.vbip = f.vbip ∧ s'.sceneChanged = false ∧ s'.listener = none ∧
      ∀ v, f.vbip = some v → hfLoop eps v (assigned n scene).1 (assigned n scene).2 n s.hf = .ok s'.hf := by
  simp only [runAll, step] at h
  cases hf : follow eps { s with scene := scene, sceneChanged := true } with
  | throw e => rw [hf] at h; cases h
  | ub => rw [hf] at h; cases h
  | ok f =>
    obtain ⟨f1, f2, f3, f4, f5, f6, -⟩ := follow_spec hf
    simp only at f1 f2 f5
    rw [hf] at h
    simp only [f2, Bool.true_or, if_true] at h
    refine ⟨f, rfl, ?_⟩
    unfold calculate at h
    simp only [f1] at h
    cases hlf : lfLoop f.cap (assigned n scene).1 (assigned n scene).2 n fun _ _ => some 0 with
    | throw e => rw [hlf] at h; cases h
    | ub => rw [hlf] at h; cases h
    | ok lf =>
      rw [hlf] at h
      cases hv : f.vbip with
      | none =>
        simp only [hv] at h
        injection h with h
        subst h
        exact ⟨rfl, rfl, hv.symm ▸ rfl, rfl, f3, by simp⟩
      | some v =>
        simp only [hv, f5] at h
        cases hh : hfLoop eps v (assigned n scene).1 (assigned n scene).2 n s.hf with
        | throw e => rw [hh] at h; cases h
        | ub => rw [hh] at h; cases h
        | ok hf' =>
          rw [hh] at h
          injection h with h
          subst h
          refine ⟨rfl, rfl, rfl, rfl, f3, ?_⟩
          intro v' hv'
          injection hv' with hv'
          subst hv'
          exact hh

/-- **C58.** After a new scene, each channel with a supported object has the CAP gains of the object's position at the
current listener position in its column of the low-frequency matrix, and the normalised VBAP gains in its column of the
high-frequency matrix. The columns of channels without an object contain zero or, where the panner yields no number, NaN.

Partial: the diffuseness is ignored (`diffuseness_ignored`), high-frequency gains are amplitude panning gains instead of
their roots, and a movement of the listener alone has no effect (`listener_move_ignored`). -/
theorem cap_scene_partial {eps : ℝ} (heps : 0 < eps) {n : Nat} {s s' : State} {scene : List Obj}
    (h : runAll eps n s [.scene scene, .process] = .ok s') (c : Nat) (hc : c < n) :
    (∀ o, driver scene c = some o → Located o → (∀ pos d, o.kind = .pointDiffuse pos d → d = 0) →
      (∃ g, gains s'.cap (sourceOf o).1 = .ok g ∧ LfColumn s'.lf c (sourceOf o).2 g) ∧
      ∀ v, s'.vbip = some v → ∃ g, v.gainsUnNormalised (sourceOf o).1.pos (sourceOf o).1.infinite = .ok g ∧
        HfColumn eps s'.hf c (sourceOf o).2 g) ∧
    ((driver scene c = none ∨ ∃ o, driver scene c = some o ∧ o.kind = .other) →
      (∀ r < s'.cap.speakers.length, s'.lf r c = some 0 ∨ s'.lf r c = none) ∧
      ∀ v, s'.vbip = some v → ∀ r < v.base.regular, s'.hf r c = some 0) := by
  obtain ⟨f, hf, hlf, hcap, hvb, -, -, hhf⟩ := process_new h
  have ha := assigned_spec n scene c hc
  obtain ⟨-, hl⟩ := lfLoop_spec n _ _ hlf
  obtain ⟨g, hg, hcol⟩ := hl c hc
  rw [hcap, hvb]
  constructor
  · intro o ho hloc hd
    rw [ho] at ha
    obtain ⟨a1, a2⟩ := ha
    rw [a1 hloc] at hg
    have hlev : usedLevel o = (sourceOf o).2 := by
      unfold usedLevel sourceOf
      cases hk : o.kind with
      | point => rfl
      | pointDiffuse pos d => simp [hd pos d hk]
      | plane => rfl
      | other => exact absurd hk hloc
    refine ⟨⟨g, hg, ?_⟩, ?_⟩
    · intro r hr
      rw [hcol r (by rw [← gains_length hg]; exact hr), a2, hlev]
      simp [hr]
    · intro v hv
      obtain ⟨-, hh⟩ := hfLoop_spec n _ _ (hhf v hv)
      obtain ⟨g, hg, hcol⟩ := hh c hc
      rw [a1 hloc] at hg
      refine ⟨g, hg, 1 / max (Real.sqrt (energy g)) eps, ?_, ?_, ?_⟩
      · have : 0 < max (Real.sqrt (energy g)) eps := lt_max_of_lt_right heps
        positivity
      · intro r hr
        rw [hcol r (by rw [← reg_length hg]; exact hr), a2, hlev]
        simp only [List.getD_eq_getElem?_getD, List.getElem?_eq_getElem hr, Option.getD_some, Option.some.injEq]
        ring
      · intro he
        rw [max_eq_left he]
        have : (fun x => (sourceOf o).2 * (1 / Real.sqrt (energy g) * x)) =
            fun x => ((sourceOf o).2 * (1 / Real.sqrt (energy g))) * x := by
          funext x; ring
        rw [this, energy_scale, mul_pow, div_pow, Real.sq_sqrt (energy_nonneg g), one_pow]
        have : energy g ≠ 0 := by
          intro h0
          rw [h0, Real.sqrt_zero] at he
          linarith
        field_simp
  · intro hno
    have a2 : (assigned n scene).2 c = 0 := by
      rcases hno with hno | ⟨o, ho, hk⟩
      · rw [hno] at ha; exact ha.2
      · rw [ho] at ha
        rw [ha.2]
        unfold usedLevel
        rw [hk]
    refine ⟨?_, ?_⟩
    · intro r hr
      rw [hcol r hr, a2]
      cases g.getD r none with
      | none => right; rfl
      | some x => left; simp
    · intro v hv r hr
      obtain ⟨-, hh⟩ := hfLoop_spec n _ _ (hhf v hv)
      obtain ⟨g, -, hcol⟩ := hh c hc
      rw [hcol r hr, a2]
      simp

/-- C58: without high-frequency output, a new scene is always processed. -/
theorem cap_scene_total (eps : ℝ) (n : Nat) (s : State) (hs : s.cap.speakers ≠ []) (hv : s.vbip = none)
    (scene : List Obj) : ∃ s', runAll eps n s [.scene scene, .process] = .ok s' := by
  have hfol : ∃ f, follow eps { s with scene := scene, sceneChanged := true } = .ok f ∧ f.vbip = none := by
    unfold follow
    cases s.listener with
    | none => exact ⟨_, rfl, hv⟩
    | some q =>
      simp only [hv]
      exact ⟨_, rfl, rfl⟩
  obtain ⟨f, hf, hfv⟩ := hfol
  obtain ⟨f1, f2, f3, f4, f5, f6, -⟩ := follow_spec hf
  obtain ⟨m, hm⟩ := lfLoop_total (s := f.cap) (by rw [f6]; exact hs) (assigned n scene).1 (assigned n scene).2 n
    (fun _ _ => some 0)
  simp only at f1 f2
  simp only [runAll, step]
  rw [hf]
  simp only [f2, Bool.true_or, if_true]
  unfold calculate
  simp only [f1, hm, hfv]
  exact ⟨_, rfl⟩

theorem runAll_append {eps : ℝ} {n : Nat} (a b : List Op) (s s' : State) :
    runAll eps n s (a ++ b) = .ok s' ↔ ∃ m, runAll eps n s a = .ok m ∧ runAll eps n m b = .ok s' := by
  induction a generalizing s with
  | nil => simp [runAll]
  | cons o a ih =>
    simp only [List.cons_append, runAll]
    cases hs : step eps n s o with
    | ok t => exact ih t
    | throw e => simp
    | ub => simp

theorem latest_append (a : List Op) (o : Op) :
    latest (a ++ [o]) = match o with | .listener p y pi r => some (p, y, pi, r) | _ => latest a := by
  induction a with
  | nil => cases o <;> rfl
  | cons x a ih =>
    rw [List.cons_append]
    cases x with
    | listener p y pi r =>
      simp only [latest, ih]
      cases o <;> simp
    | scene l => simp only [latest, ih]
    | process => simp only [latest, ih]

/-- Invariant: the listener position is pending or the panner is set for it. -/
theorem pending_or_set {eps : ℝ} {n : Nat} {s0 : State} (h0 : s0.listener = none) (hc : SetFor s0.cap none)
    (ops : List Op) : ∀ s, runAll eps n s0 ops = .ok s →
      match s.listener with
      | some q => latest ops = some q
      | none => SetFor s.cap (latest ops) := by
  induction ops using List.reverseRecOn with
  | nil =>
    intro s h
    injection h with h
    subst h
    rw [h0]
    exact hc
  | append_singleton ops o ih =>
    intro s h
    obtain ⟨m, hm, hs⟩ := (runAll_append ops [o] s0 s).1 h
    have ih := ih m hm
    rw [latest_append]
    simp only [runAll] at hs
    cases hst : step eps n m o with
    | throw e => rw [hst] at hs; cases hs
    | ub => rw [hst] at hs; cases hs
    | ok t =>
      rw [hst] at hs
      injection hs with hs
      subst hs
      cases o with
      | scene l =>
        simp only [step] at hst
        injection hst with hst
        subst hst
        exact ih
      | listener p y pi r =>
        simp only [step] at hst
        injection hst with hst
        subst hst
        rfl
      | process =>
        simp only [step] at hst
        cases hf : follow eps m with
        | throw e => rw [hf] at hst; cases hst
        | ub => rw [hf] at hst; cases hst
        | ok f =>
          rw [hf] at hst
          obtain ⟨f1, f2, f3, f4, f5, f6, f7⟩ := follow_spec hf
          have hcap : t.cap = f.cap ∧ t.listener = none := by
            simp only at hst
            split_ifs at hst with hch
            · cases hca : calculate eps n f with
              | throw e => rw [hca] at hst; cases hst
              | ub => rw [hca] at hst; cases hst
              | ok u =>
                rw [hca] at hst
                injection hst with hst
                subst hst
                unfold calculate at hca
                simp only at hca
                cases hlf : lfLoop f.cap (assigned n f.scene).1 (assigned n f.scene).2 n fun _ _ => some 0 with
                | throw e => rw [hlf] at hca; cases hca
                | ub => rw [hlf] at hca; cases hca
                | ok lf =>
                  rw [hlf] at hca
                  simp only at hca
                  cases hv : f.vbip with
                  | none =>
                    rw [hv] at hca
                    injection hca with hca
                    subst hca
                    exact ⟨rfl, f3⟩
                  | some v =>
                    rw [hv] at hca
                    simp only at hca
                    cases hh : hfLoop eps v (assigned n f.scene).1 (assigned n f.scene).2 n f.hf with
                    | throw e => rw [hh] at hca; cases hca
                    | ub => rw [hh] at hca; cases hca
                    | ok hf' =>
                      rw [hh] at hca
                      injection hca with hca
                      subst hca
                      exact ⟨rfl, f3⟩
            · injection hst with hst
              subst hst
              exact ⟨rfl, f3⟩
          rw [hcap.2, hcap.1]
          simp only
          cases hl : m.listener with
          | none =>
            rw [hl] at ih f7
            simp only at ih f7
            rw [f7.1]
            exact ih
          | some q =>
            obtain ⟨p, y, pi, r⟩ := q
            rw [hl] at ih f7
            simp only at ih f7
            rw [ih, f7]
            exact ⟨rfl, rfl⟩

/-- **C58.** After any history, the gains of a new scene are for the last listener position and orientation that was
received. -/
theorem cap_follows_listener {eps : ℝ} {n : Nat} (speakers : List (Vec ℝ)) (hfMode : Bool) (vbip : Option CapVbap)
    {s0 : State} (hi : init eps speakers hfMode vbip = .ok s0) (ops : List Op) (scene : List Obj) {s : State}
    (h : runAll eps n s0 (ops ++ [.scene scene, .process]) = .ok s) :
    SetFor s.cap (latest ops) ∧ s.listener = none := by
  have hi' : s0.listener = none ∧ SetFor s0.cap none := by
    unfold init at hi
    cases vbip with
    | none => injection hi with hi; subst hi; exact ⟨rfl, rfl, rfl⟩
    | some v =>
      simp only at hi
      cases hv : v.setListener eps ⟨0, 0, 0⟩ with
      | ok v' => rw [hv] at hi; injection hi with hi; subst hi; exact ⟨rfl, rfl, rfl⟩
      | throw e => rw [hv] at hi; cases hi
      | ub => rw [hv] at hi; cases hi
  obtain ⟨m, hm, hs⟩ := (runAll_append ops _ s0 s).1 h
  obtain ⟨-, -, -, -, -, -, hl, -⟩ := process_new hs
  have hp := pending_or_set hi'.1 hi'.2 _ s h
  rw [hl] at hp
  simp only at hp
  rw [show ops ++ [Op.scene scene, Op.process] = (ops ++ [Op.scene scene]) ++ [Op.process] by simp, latest_append,
    latest_append] at hp
  exact ⟨hp, hl⟩

/-- C58, negation: the diffuseness of a point source has no influence on the gains. -/
theorem diffuseness_ignored (n : Nat) (a b : List Obj) (chs : List Nat) (pos : Vec ℝ) (d : ℝ) :
    assigned n (a ++ ⟨chs, .pointDiffuse pos d⟩ :: b) = assigned n (a ++ ⟨chs, .point pos⟩ :: b) := by
  unfold assigned
  rw [assign_append, assign_append]
  generalize assign n a (fun _ => ⟨⟨1, 0, 0⟩, false⟩, fun _ => 0) = r
  conv_lhs => unfold assign
  conv_rhs => unfold assign
  simp only
  split
  · split
    · rfl
    · simp
  · rfl

/-- C58, negation: a new listener position and orientation without a new scene does not change the gains. -/
theorem listener_move_ignored {eps : ℝ} {n : Nat} {s s' : State} (hs : s.sceneChanged = false) (p : Vec ℝ)
    (yaw pitch roll : ℝ) (h : runAll eps n s [.listener p yaw pitch roll, .process] = .ok s') :
    s'.lf = s.lf ∧ s'.hf = s.hf := by
  simp only [runAll, step] at h
  cases hf : follow eps { s with listener := some (p, yaw, pitch, roll) } with
  | throw e => rw [hf] at h; cases h
  | ub => rw [hf] at h; cases h
  | ok f =>
    obtain ⟨f1, f2, f3, f4, f5, f6, -⟩ := follow_spec hf
    rw [hf] at h
    simp only [f2, hs, f3, Option.isSome_none, Bool.or_self, Bool.false_eq_true, if_false] at h
    injection h with h
    subst h
    exact ⟨f4, f5⟩

/-- C58: a scene with a point source on channel 0, and one with diffuseness 0 on channel 1, meets the hypotheses of
`cap_scene_partial` for an array of two loudspeakers. -/
example : ∃ s0 s, init (1 / 1000) [⟨0, 1, 0⟩, ⟨0, -1, 0⟩] false none = .ok s0 ∧
    runAll (1 / 1000) 2 s0 [.listener ⟨0, 0, 0⟩ 0 0 0,
      .scene [⟨[0], .point ⟨1, 0, 0⟩⟩, ⟨[1], .pointDiffuse ⟨1, 0, 0⟩ 0⟩], .process] = .ok s ∧
    driver [⟨[0], .point ⟨1, 0, 0⟩⟩, ⟨[1], .pointDiffuse ⟨1, 0, 0⟩ 0⟩] 0 = some ⟨[0], .point ⟨1, 0, 0⟩⟩ := by
  obtain ⟨s', h⟩ := cap_scene_total (1 / 1000) 2
    ⟨⟨[⟨0, 1, 0⟩, ⟨0, -1, 0⟩], ⟨0, 0, 0⟩, ⟨1, 0, 0⟩, false, 3 / 2, 10⟩, none, [], false, some (⟨0, 0, 0⟩, 0, 0, 0),
      fun _ => ⟨⟨0, 0, 0⟩, false⟩, fun _ => 0, fun _ _ => some 0, fun _ _ => some 0⟩ (by simp) rfl
    [⟨[0], .point ⟨1, 0, 0⟩⟩, ⟨[1], .pointDiffuse ⟨1, 0, 0⟩ 0⟩]
  exact ⟨_, s', rfl, h, by simp [driver]⟩

end Visr.Cap
