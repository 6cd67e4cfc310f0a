import Verif.Cap.Props

/-!
# C58: high-frequency gains of two-dimensional arrays and of arrays at infinite distance

For a two-dimensional array whose pairs carry a valid third index (`LoudspeakerArray::setTriplet()`), and for arrays
which are marked as infinite.
-/

namespace Visr.Cap
open Visr Visr.Rotation

/-- The projection to the horizontal plane. -/
def flat (l : Vec ℝ) : Vec ℝ := ⟨l.x, l.y, 0⟩

/-- The point from which the loudspeakers are seen: the listener, or the origin if the array is infinite. -/
def eye (infinite : Bool) (p : Vec ℝ) : Vec ℝ := if infinite then ⟨0, 0, 0⟩ else p

theorem sub_zero' (l : Vec ℝ) : l.sub ⟨0, 0, 0⟩ = l := by simp [Vec.sub]

theorem rel_eq (b : Bool) (l p : Vec ℝ) : (if b then l else l.sub p) = l.sub (eye b p) := by
  unfold eye
  cases b
  · simp
  · simp [sub_zero']

theorem flat_sub (l p : Vec ℝ) : (⟨(l.sub p).x, (l.sub p).y, 0⟩ : Vec ℝ) = (flat l).sub (flat p) := by
  simp [flat, Vec.sub]

theorem invOf_flat {eps : ℝ} {v : CapVbap} (h2 : v.base.is2D = true) {t : ℕ × ℕ × ℕ} {y : Vbap.Inv × Bool}
    (hy : invOf eps v t = some y)
    (hd : ∀ l ∈ v.base.positions, eps ≤ ((flat l).sub (flat (eye v.arrayInfinite v.base.listener))).norm) :
    t.1 < v.base.positions.length ∧ t.2.1 < v.base.positions.length ∧
      y.1 = Vbap.inverse
        (Vbap.direction (flat (eye v.arrayInfinite v.base.listener)) ((v.base.positions.map flat).getD t.1 ⟨0, 0, 0⟩))
        (Vbap.direction (flat (eye v.arrayInfinite v.base.listener)) ((v.base.positions.map flat).getD t.2.1 ⟨0, 0, 0⟩))
        ⟨0, 0, 1⟩ ∧
      y.2 = decide (
        (Vbap.direction (flat (eye v.arrayInfinite v.base.listener)) ((v.base.positions.map flat).getD t.1 ⟨0, 0, 0⟩)).x *
        (Vbap.direction (flat (eye v.arrayInfinite v.base.listener)) ((v.base.positions.map flat).getD t.2.1 ⟨0, 0, 0⟩)).x +
        (Vbap.direction (flat (eye v.arrayInfinite v.base.listener)) ((v.base.positions.map flat).getD t.1 ⟨0, 0, 0⟩)).y *
        (Vbap.direction (flat (eye v.arrayInfinite v.base.listener)) ((v.base.positions.map flat).getD t.2.1 ⟨0, 0, 0⟩)).y
          < v.cosTheta) := by
  unfold invOf corners at hy
  simp only [rel_eq, h2, if_true, flat_sub] at hy
  cases h1 : v.base.positions[t.1]? with
  | none => rw [h1] at hy; cases hy
  | some l1 =>
    cases h2 : v.base.positions[t.2.1]? with
    | none => rw [h1, h2] at hy; cases hy
    | some l2 =>
      cases h3 : v.base.positions[t.2.2]? with
      | none => rw [h1, h2, h3] at hy; cases hy
      | some l3 =>
        rw [h1, h2, h3] at hy
        simp only [Option.bind_eq_bind, Option.bind_some, Option.map_some, Option.some.injEq] at hy
        have e1 : (v.base.positions.map flat).getD t.1 ⟨0, 0, 0⟩ = flat l1 := by
          rw [List.getD_eq_getElem?_getD, List.getElem?_map, h1]; rfl
        have e2 : (v.base.positions.map flat).getD t.2.1 ⟨0, 0, 0⟩ = flat l2 := by
          rw [List.getD_eq_getElem?_getD, List.getElem?_map, h2]; rfl
        have n3 : Vbap.normalise eps ⟨0, 0, 1⟩ = ⟨0, 0, 1⟩ := by
          simp [Vbap.normalise]
        rw [Vbap.normalise_eq_direction (hd l1 (List.mem_of_getElem? h1)),
          Vbap.normalise_eq_direction (hd l2 (List.mem_of_getElem? h2)), n3] at hy
        rw [e1, e2, ← hy]
        exact ⟨(List.getElem?_eq_some_iff.mp h1).1, (List.getElem?_eq_some_iff.mp h2).1, rfl, rfl⟩

theorem direction_flat_z (p : Vec ℝ) (ps : List (Vec ℝ)) (i : ℕ) :
    (Vbap.direction (flat p) ((ps.map flat).getD i ⟨0, 0, 0⟩)).z = 0 := by
  rw [List.getD_eq_getElem?_getD, List.getElem?_map]
  cases ps[i]? <;> simp [Vbap.direction, flat, Vec.scale, Vec.sub]

theorem setListener_keeps {eps : ℝ} {v0 v : CapVbap} {p : Vec ℝ} (hv : v0.setListener eps p = .ok v) :
    v.base.positions = v0.base.positions ∧ v.base.triplets = v0.base.triplets ∧ v.base.is2D = v0.base.is2D ∧
      v.base.listener = p ∧ v.fade2D = v0.fade2D ∧ v.near.length = v.base.inv.length ∧
      v.base.inv.length = v0.base.triplets.length ∧
      ∀ (j : ℕ) (t : ℕ × ℕ × ℕ), v0.base.triplets[j]? = some t →
        ∃ y, invOf eps { v0 with base := { v0.base with listener := p } } t = some y ∧ v.base.inv[j]? = some y.1 ∧
          v.near[j]? = some y.2 := by
  unfold CapVbap.setListener at hv
  dsimp only at hv
  cases hm : v0.base.triplets.mapM (invOf eps { v0 with base := { v0.base with listener := p } }) with
  | none => rw [hm] at hv; cases hv
  | some l =>
    rw [hm] at hv
    injection hv with hv
    subst hv
    obtain ⟨h1, h2⟩ := Vbap.mapM_get hm
    refine ⟨rfl, rfl, rfl, rfl, rfl, by simp, by simpa using h1, ?_⟩
    intro j t ht
    obtain ⟨y, hy, hj⟩ := h2 j t ht
    exact ⟨y, hy, by simp [hj], by simp [hj]⟩

/-- With the default setting, no pair counts as near. -/
theorem near_false_2D {eps : ℝ} {v0 v : CapVbap} {p : Vec ℝ} (hv : v0.setListener eps p = .ok v)
    (h2 : v0.base.is2D = true) (hct : v0.cosTheta ≤ -1) (heps : 0 < eps)
    (hd : ∀ l ∈ v0.base.positions, eps ≤ ((flat l).sub (flat (eye v0.arrayInfinite p))).norm) :
    ∀ b ∈ v.near, b = false := by
  obtain ⟨-, -, -, -, -, hnl, hil, hget⟩ := setListener_keeps hv
  intro b hb
  obtain ⟨k, hk⟩ := List.getElem?_of_mem hb
  have hkl : k < v0.base.triplets.length := by
    rw [← hil, ← hnl]; exact (List.getElem?_eq_some_iff.mp hk).1
  obtain ⟨y, hy, -, hy2⟩ := hget k _ (List.getElem?_eq_getElem hkl)
  generalize v0.base.triplets[k] = t at hy
  obtain ⟨b1, b2, -, hnear⟩ := invOf_flat (v := { v0 with base := { v0.base with listener := p } }) h2 hy hd
  rw [hk] at hy2
  injection hy2 with hy2
  rw [hy2, hnear]
  simp only [decide_eq_false_iff_not, not_lt]
  dsimp only at b1 b2
  have n : ∀ i, i < v0.base.positions.length →
      eps ≤ (((v0.base.positions.map flat).getD i ⟨0, 0, 0⟩).sub (flat (eye v0.arrayInfinite p))).norm := by
    intro i hi
    rw [List.getD_eq_getElem?_getD, List.getElem?_map, List.getElem?_eq_getElem hi]
    exact hd _ (List.getElem_mem hi)
  have d1 := Vbap.direction_norm (lt_of_lt_of_le heps (n _ b1))
  have d2 := Vbap.direction_norm (lt_of_lt_of_le heps (n _ b2))
  refine hct.trans ?_
  generalize Vbap.direction (flat (eye v0.arrayInfinite p)) ((v0.base.positions.map flat).getD t.1 ⟨0, 0, 0⟩) = a at *
  generalize Vbap.direction (flat (eye v0.arrayInfinite p)) ((v0.base.positions.map flat).getD t.2.1 ⟨0, 0, 0⟩) = c at *
  nlinarith [sq_nonneg (a.x + c.x), sq_nonneg (a.y + c.y), sq_nonneg a.z, sq_nonneg c.z]

/-- The gains of a pair: those of the plane, whatever the height of the source. -/
theorem flat_gains {u w : Vec ℝ} (hu : u.z = 0) (hw : w.z = 0) (hne : u.x * w.y - u.y * w.x ≠ 0) (s : Vec ℝ) (j : ℕ) :
    s.x = (Vbap.gainsOf s (Vbap.inverse u w ⟨0, 0, 1⟩) j).g1 * u.x + (Vbap.gainsOf s (Vbap.inverse u w ⟨0, 0, 1⟩) j).g2 * w.x ∧
    s.y = (Vbap.gainsOf s (Vbap.inverse u w ⟨0, 0, 1⟩) j).g1 * u.y + (Vbap.gainsOf s (Vbap.inverse u w ⟨0, 0, 1⟩) j).g2 * w.y ∧
    ∀ a b : ℝ, s.x = a * u.x + b * w.x → s.y = a * u.y + b * w.y →
      (Vbap.gainsOf s (Vbap.inverse u w ⟨0, 0, 1⟩) j).g1 = a ∧ (Vbap.gainsOf s (Vbap.inverse u w ⟨0, 0, 1⟩) j).g2 = b := by
  have ht : Vbap.triple u w ⟨0, 0, 1⟩ ≠ 0 := by
    unfold Vbap.triple
    rw [hu, hw]
    intro h
    exact hne (by linear_combination h)
  obtain ⟨hx, hy, -⟩ := Vbap.gainsOf_combination ht s j
  refine ⟨by simpa using hx, by simpa using hy, ?_⟩
  intro a b ha hb
  have := Vbap.gainsOf_unique ht (s := s) (a := a) (b := b) (c := s.z)
    ⟨by simpa using ha, by simpa using hb, by simp [hu, hw]⟩ j
  rw [this]
  exact ⟨rfl, rfl⟩

theorem relative_xy (v : CapVbap) (src : Vec ℝ) (pw : Bool) :
    (v.relative src pw).x = (if pw then src else src.sub v.base.listener).x ∧
      (v.relative src pw).y = (if pw then src else src.sub v.base.listener).y := by
  unfold CapVbap.relative
  dsimp only
  split_ifs <;> exact ⟨rfl, rfl⟩

/-- **C58.** High-frequency gains of a two-dimensional array with valid third indices, default settings, in or out of
the mode which is meant to fade elevated sources: a source in the sector of some pair has nonnegative gains which vanish
outside one pair, and the gain-weighted horizontal loudspeaker directions sum to the projection of the source. The
heights of loudspeakers, listener and source do not matter. -/
theorem vbip_inside_2D {eps : ℝ} {v0 v : CapVbap} {p : Vec ℝ} (hv : v0.setListener eps p = .ok v)
    (h2 : v0.base.is2D = true) (hct : v0.cosTheta ≤ -1) (heps : 0 < eps)
    (hd : ∀ l ∈ v0.base.positions, eps ≤ ((flat l).sub (flat (eye v0.arrayInfinite p))).norm)
    (hp : ∀ t ∈ v0.base.triplets, Vbap.Proper2 (v0.base.positions.map flat) (flat (eye v0.arrayInfinite p)) t)
    (src : Vec ℝ) (planeWave : Bool) (s : Vec ℝ) (hs : s = if planeWave then src else src.sub p)
    (hin : ∃ t ∈ v0.base.triplets,
      Vbap.InSector (v0.base.positions.map flat) (flat (eye v0.arrayInfinite p)) t s) :
    ∃ g, plain v src planeWave = .ok g ∧ (∀ i, 0 ≤ g i) ∧
      Vbap.SumsTo (v0.base.positions.map flat) (flat (eye v0.arrayInfinite p)) g (flat s) ∧
      ∃ t ∈ v0.base.triplets, Vbap.InSector (v0.base.positions.map flat) (flat (eye v0.arrayInfinite p)) t s ∧
        ∀ i, i ≠ t.1 → i ≠ t.2.1 → g i = 0 := by
  obtain ⟨vp, vt, v2, vl, -, hnl, hil, hget⟩ := setListener_keeps hv
  have hn := near_false_2D hv h2 hct heps hd
  obtain ⟨rx, ry⟩ := relative_xy v src planeWave
  rw [vl, ← hs] at rx ry
  set q := v.relative src planeWave with hq
  have hinv : ∀ (j : ℕ) (t : ℕ × ℕ × ℕ), v0.base.triplets[j]? = some t → v.base.inv[j]? = some (Vbap.inverse
      (Vbap.direction (flat (eye v0.arrayInfinite p)) ((v0.base.positions.map flat).getD t.1 ⟨0, 0, 0⟩))
      (Vbap.direction (flat (eye v0.arrayInfinite p)) ((v0.base.positions.map flat).getD t.2.1 ⟨0, 0, 0⟩)) ⟨0, 0, 1⟩) := by
    intro j t ht
    obtain ⟨y, hy, hj, -⟩ := hget j t ht
    obtain ⟨-, -, hi, -⟩ := invOf_flat (v := { v0 with base := { v0.base with listener := p } }) h2 hy hd
    rw [hj, hi]
  have hex : ∃ (k : ℕ) (i : Vbap.Inv), v.base.inv[k]? = some i ∧ Vbap.Inside true (Vbap.gainsOf q i (0 + k)) := by
    obtain ⟨t, ht, a, b, ha, hb, hx, hy⟩ := hin
    obtain ⟨k, hk⟩ := List.getElem?_of_mem ht
    refine ⟨k, _, hinv k t hk, ?_⟩
    obtain ⟨-, -, hu⟩ := flat_gains (direction_flat_z _ _ t.1) (direction_flat_z _ _ t.2.1) (hp t ht).2.2.2.2 q (0 + k)
    obtain ⟨g1, g2⟩ := hu a b (by rw [rx]; exact hx) (by rw [ry]; exact hy)
    exact ⟨g1 ▸ ha, g2 ▸ hb, .inr rfl⟩
  obtain ⟨k, i, hk, hi, hse, -⟩ := Vbap.search_inside true q v.base.inv 0 none hex
  have hse' := search_inside true q v.base.inv v.near 0 none hnl hn hex
  rw [hse] at hse'
  have hkl : k < v0.base.triplets.length := by
    rw [← hil]; exact (List.getElem?_eq_some_iff.mp hk).1
  have htk : v0.base.triplets[k]? = some v0.base.triplets[k] := List.getElem?_eq_getElem hkl
  generalize v0.base.triplets[k] = t at htk
  have htm : t ∈ v0.base.triplets := List.mem_of_getElem? htk
  obtain ⟨b1, b2, -, -, hne⟩ := hp t htm
  have ei := hinv k t htk
  rw [hk] at ei
  injection ei with ei
  obtain ⟨cx, cy, -⟩ := flat_gains (direction_flat_z _ _ t.1) (direction_flat_z _ _ t.2.1) hne q (0 + k)
  rw [← ei] at cx cy
  obtain ⟨g1, g2, -⟩ := hi
  have n12 : t.1 ≠ t.2.1 := by
    intro e; apply hne; rw [e]; ring
  have b1' : t.1 < v0.base.positions.length := by simpa using b1
  have b2' : t.2.1 < v0.base.positions.length := by simpa using b2
  have hpl : plain v src planeWave = .ok (Function.update (Function.update (fun _ => 0) t.1
      (Vbap.gainsOf q i (0 + k)).g1) t.2.1 (Vbap.gainsOf q i (0 + k)).g2) := by
    unfold plain
    rw [v2, h2, ← hq, hse']
    have e : v.base.triplets[(Vbap.gainsOf q i (0 + k)).j]? = some t := by
      rw [vt]; simpa [Vbap.gainsOf] using htk
    simp only [e, vp, b1', b2', and_self, Bool.true_eq_false, false_imp_iff, if_true]
  refine ⟨_, hpl, ?_, ?_, t, htm, ⟨_, _, g1, g2, by rw [← rx]; exact cx, by rw [← ry]; exact cy⟩, ?_⟩
  · intro x
    by_cases e2 : x = t.2.1
    · rw [e2, Function.update_self]; exact g2
    · rw [Function.update_of_ne e2]
      by_cases e1 : x = t.1
      · rw [e1, Function.update_self]; exact g1
      · rw [Function.update_of_ne e1]
  · unfold Vbap.SumsTo
    rw [Vbap.sum_two _ _ _ b1 b2 n12, Vbap.sum_two _ _ _ b1 b2 n12, Vbap.sum_two _ _ _ b1 b2 n12]
    refine ⟨?_, ?_, ?_⟩
    · rw [← cx, rx]; rfl
    · rw [← cy, ry]; rfl
    · rw [direction_flat_z, direction_flat_z]; simp [flat]
  · intro x x1 x2
    rw [Function.update_of_ne x2, Function.update_of_ne x1]

/-- C58, high-frequency gains of a two-dimensional array: a source outside of the sectors of all pairs is silent. -/
theorem vbip_outside_2D {eps : ℝ} {v0 v : CapVbap} {p : Vec ℝ} (hv : v0.setListener eps p = .ok v)
    (h2 : v0.base.is2D = true) (hct : v0.cosTheta ≤ -1) (heps : 0 < eps)
    (hd : ∀ l ∈ v0.base.positions, eps ≤ ((flat l).sub (flat (eye v0.arrayInfinite p))).norm)
    (hp : ∀ t ∈ v0.base.triplets, Vbap.Proper2 (v0.base.positions.map flat) (flat (eye v0.arrayInfinite p)) t)
    (src : Vec ℝ) (planeWave : Bool) (s : Vec ℝ) (hs : s = if planeWave then src else src.sub p)
    (hout : ∀ t ∈ v0.base.triplets,
      ¬ Vbap.InSector (v0.base.positions.map flat) (flat (eye v0.arrayInfinite p)) t s) :
    plain v src planeWave = .ok fun _ => 0 := by
  obtain ⟨vp, vt, v2, vl, -, hnl, hil, hget⟩ := setListener_keeps hv
  have hn := near_false_2D hv h2 hct heps hd
  obtain ⟨rx, ry⟩ := relative_xy v src planeWave
  rw [vl, ← hs] at rx ry
  unfold plain
  rw [v2, h2, search_outside true (v.relative src planeWave) v.base.inv v.near 0 hn]
  intro k i hk hin
  have hkl : k < v0.base.triplets.length := by
    rw [← hil]; exact (List.getElem?_eq_some_iff.mp hk).1
  have htk := List.getElem?_eq_getElem hkl
  have ht := List.getElem_mem hkl
  generalize v0.base.triplets[k] = t at htk ht
  obtain ⟨y, hy, hj, -⟩ := hget k t htk
  obtain ⟨-, -, hi, -⟩ := invOf_flat (v := { v0 with base := { v0.base with listener := p } }) h2 hy hd
  rw [hk] at hj
  injection hj with hj
  rw [hj, hi] at hin
  obtain ⟨g1, g2, -⟩ := hin
  obtain ⟨cx, cy, -⟩ := flat_gains (direction_flat_z (eye v0.arrayInfinite p) v0.base.positions t.1)
    (direction_flat_z (eye v0.arrayInfinite p) v0.base.positions t.2.1) (hp t ht).2.2.2.2
    (v.relative src planeWave) (0 + k)
  exact hout t ht ⟨_, _, g1, g2, by rw [← rx]; exact cx, by rw [← ry]; exact cy⟩

/-! ### The fade mode -/

theorem search_fade {s s' : Vec ℝ} (hx : s.x = s'.x) (hy : s.y = s'.y) : ∀ (is : List Vbap.Inv) (ns : List Bool) (j : ℕ),
    (∀ i ∈ is, i.r1.z = 0 ∧ i.r2.z = 0) →
    (search true s is ns j).map (fun f => (f.j, f.g1, f.g2)) = (search true s' is ns j).map fun f => (f.j, f.g1, f.g2)
  | [], _, _, _ => by unfold search; rfl
  | _ :: _, [], _, _ => by unfold search; rfl
  | i :: is, n :: ns, j, h => by
    obtain ⟨z1, z2⟩ := h i (by simp)
    have e1 : (Vbap.gainsOf s i j).g1 = (Vbap.gainsOf s' i j).g1 := by simp [Vbap.gainsOf, hx, hy, z1]
    have e2 : (Vbap.gainsOf s i j).g2 = (Vbap.gainsOf s' i j).g2 := by simp [Vbap.gainsOf, hx, hy, z2]
    have ej : (Vbap.gainsOf s i j).j = (Vbap.gainsOf s' i j).j := rfl
    have ih := search_fade hx hy is ns (j + 1) fun i' hi' => h i' (by simp [hi'])
    unfold search
    simp only [e1, e2, ej, or_true, and_true, true_and]
    split_ifs
    · rfl
    · simp [e1, e2, ej]
    · exact ih

theorem corner_third_z {eps : ℝ} {v : CapVbap} (h2 : v.base.is2D = true) {t : ℕ × ℕ × ℕ} {y : Vbap.Inv × Bool}
    (hy : invOf eps v t = some y) : y.1.r1.z = 0 ∧ y.1.r2.z = 0 := by
  unfold invOf corners at hy
  simp only [h2, if_true] at hy
  cases h1 : v.base.positions[t.1]? with
  | none => rw [h1] at hy; cases hy
  | some l1 =>
    cases h2 : v.base.positions[t.2.1]? with
    | none => rw [h1, h2] at hy; cases hy
    | some l2 =>
      cases h3 : v.base.positions[t.2.2]? with
      | none => rw [h1, h2, h3] at hy; cases hy
      | some l3 =>
        rw [h1, h2, h3] at hy
        simp only [Option.bind_eq_bind, Option.bind_some, Option.map_some, Option.some.injEq] at hy
        have n3 : Vbap.normalise eps ⟨0, 0, 1⟩ = ⟨0, 0, 1⟩ := by
          simp [Vbap.normalise]
        rw [n3] at hy
        rw [← hy]
        simp [Vbap.inverse]

/-- C58: `set2Dfade()` has no effect. Elevated sources are played as loudly with it as without, for every
two-dimensional array, listener and source. -/
theorem fade_has_no_effect {eps : ℝ} {v0 v : CapVbap} {p : Vec ℝ} (hv : v0.setListener eps p = .ok v)
    (h2 : v0.base.is2D = true) (src : Vec ℝ) (planeWave : Bool) :
    plain { v with fade2D := true } src planeWave = plain { v with fade2D := false } src planeWave := by
  obtain ⟨-, -, v2, -, -, -, hil, hget⟩ := setListener_keeps hv
  have hz : ∀ i ∈ v.base.inv, i.r1.z = 0 ∧ i.r2.z = 0 := by
    intro i hi
    obtain ⟨k, hk⟩ := List.getElem?_of_mem hi
    have hkl : k < v0.base.triplets.length := by
      rw [← hil]; exact (List.getElem?_eq_some_iff.mp hk).1
    obtain ⟨y, hy, hj, -⟩ := hget k _ (List.getElem?_eq_getElem hkl)
    rw [hk] at hj
    injection hj with hj
    rw [hj]
    exact corner_third_z (v := { v0 with base := { v0.base with listener := p } }) h2 hy
  have hr := relative_xy { v with fade2D := true } src planeWave
  have hr' := relative_xy { v with fade2D := false } src planeWave
  have hs := search_fade (hr.1.trans hr'.1.symm) (hr.2.trans hr'.2.symm) v.base.inv v.near 0 hz
  unfold plain
  simp only [v2, h2, if_true] at hs ⊢
  cases ha : search true (CapVbap.relative { v with fade2D := true } src planeWave) v.base.inv v.near 0 with
  | none =>
    rw [ha] at hs
    cases hb : search true (CapVbap.relative { v with fade2D := false } src planeWave) v.base.inv v.near 0 with
    | none => rfl
    | some f' => rw [hb] at hs; cases hs
  | some f =>
    rw [ha] at hs
    cases hb : search true (CapVbap.relative { v with fade2D := false } src planeWave) v.base.inv v.near 0 with
    | none => rw [hb] at hs; cases hs
    | some f' =>
      rw [hb] at hs
      simp only [Option.map_some, Option.some.injEq, Prod.mk.injEq] at hs
      obtain ⟨hj, h1, h2⟩ := hs
      simp only [hj, h1, h2]

/-! ### Infinite arrays -/

theorem invOf_infinite (eps : ℝ) (v : CapVbap) (hi : v.arrayInfinite = true) (t : ℕ × ℕ × ℕ) :
    invOf eps v t =
      invOf eps { v with arrayInfinite := false, base := { v.base with listener := ⟨0, 0, 0⟩ } } t := by
  unfold invOf corners
  simp only [hi, if_true, Bool.false_eq_true, if_false, sub_zero']

/-- C58, high-frequency gains: for an infinite array, the loudspeaker directions are those seen from the origin, wherever
the listener is; only the source position is relative to the listener. -/
theorem vbip_infinite {eps : ℝ} {v0 v : CapVbap} {p : Vec ℝ} (hv : v0.setListener eps p = .ok v)
    (hi : v0.arrayInfinite = true) (src : Vec ℝ) (planeWave : Bool) :
    ∃ v', ({ v0 with arrayInfinite := false } : CapVbap).setListener eps ⟨0, 0, 0⟩ = .ok v' ∧
      plain v src planeWave = plain v' (if planeWave then src else src.sub p) true := by
  have e : v0.base.triplets.mapM (invOf eps { v0 with base := { v0.base with listener := p } }) =
      v0.base.triplets.mapM
        (invOf eps { v0 with arrayInfinite := false, base := { v0.base with listener := ⟨0, 0, 0⟩ } }) := by
    congr 1
    funext t
    exact invOf_infinite eps { v0 with base := { v0.base with listener := p } } hi t
  have hv2 : (match v0.base.triplets.mapM (invOf eps { v0 with base := { v0.base with listener := p } }) with
    | some l => Outcome.ok (CapVbap.mk { v0.base with listener := p, inv := l.map Prod.fst }
        v0.arrayInfinite v0.fade2D v0.cosTheta (l.map Prod.snd))
    | none => .ub) = .ok v := hv
  show ∃ v', (match v0.base.triplets.mapM
      (invOf eps { v0 with arrayInfinite := false, base := { v0.base with listener := ⟨0, 0, 0⟩ } }) with
    | some l => Outcome.ok (CapVbap.mk { v0.base with listener := ⟨0, 0, 0⟩, inv := l.map Prod.fst }
        false v0.fade2D v0.cosTheta (l.map Prod.snd))
    | none => .ub) = .ok v' ∧ _
  rw [e] at hv2
  cases hm : v0.base.triplets.mapM
      (invOf eps { v0 with arrayInfinite := false, base := { v0.base with listener := ⟨0, 0, 0⟩ } }) with
  | none => rw [hm] at hv2; cases hv2
  | some l =>
    rw [hm] at hv2
    injection hv2 with hv2
    subst hv2
    exact ⟨_, rfl, rfl⟩

/-- **C58.** High-frequency gains of an infinite three-dimensional array, default settings. -/
theorem vbip_inside_infinite {eps : ℝ} {v0 v : CapVbap} {p : Vec ℝ} (hv : v0.setListener eps p = .ok v)
    (h2 : v0.base.is2D = false) (hi : v0.arrayInfinite = true) (hct : v0.cosTheta ≤ -1) (heps : 0 < eps)
    (hd : ∀ l ∈ v0.base.positions, eps ≤ l.norm)
    (hp : ∀ t ∈ v0.base.triplets, Vbap.Proper v0.base.positions ⟨0, 0, 0⟩ t) (src : Vec ℝ) (planeWave : Bool) (s : Vec ℝ)
    (hs : s = if planeWave then src else src.sub p)
    (hin : ∃ t ∈ v0.base.triplets, Vbap.InCone v0.base.positions ⟨0, 0, 0⟩ t s) :
    ∃ g, plain v src planeWave = .ok g ∧ (∀ i, 0 ≤ g i) ∧ Vbap.SumsTo v0.base.positions ⟨0, 0, 0⟩ g s ∧
      ∃ t ∈ v0.base.triplets, Vbap.InCone v0.base.positions ⟨0, 0, 0⟩ t s ∧
        ∀ i, i ≠ t.1 → i ≠ t.2.1 → i ≠ t.2.2 → g i = 0 := by
  obtain ⟨v', hv', he⟩ := vbip_infinite hv hi src planeWave
  rw [he, ← hs]
  exact vbip_inside hv' h2 rfl hct heps (fun l hl => by rw [sub_zero']; exact hd l hl) hp s true s (by simp) hin

/-- C58, high-frequency gains of an infinite array: a source outside of the cones of all triplets is silent. -/
theorem vbip_outside_infinite {eps : ℝ} {v0 v : CapVbap} {p : Vec ℝ} (hv : v0.setListener eps p = .ok v)
    (h2 : v0.base.is2D = false) (hi : v0.arrayInfinite = true) (hct : v0.cosTheta ≤ -1) (heps : 0 < eps)
    (hd : ∀ l ∈ v0.base.positions, eps ≤ l.norm)
    (hp : ∀ t ∈ v0.base.triplets, Vbap.Proper v0.base.positions ⟨0, 0, 0⟩ t) (src : Vec ℝ) (planeWave : Bool) (s : Vec ℝ)
    (hs : s = if planeWave then src else src.sub p)
    (hout : ∀ t ∈ v0.base.triplets, ¬ Vbap.InCone v0.base.positions ⟨0, 0, 0⟩ t s) :
    plain v src planeWave = .ok fun _ => 0 := by
  obtain ⟨v', hv', he⟩ := vbip_infinite hv hi src planeWave
  rw [he, ← hs]
  exact vbip_outside hv' h2 rfl hct heps (fun l hl => by rw [sub_zero']; exact hd l hl) hp s true s (by simp) hout

/-- Two loudspeakers in a quarter of the plane, at different heights, with a third index which is valid. -/
noncomputable def quarter (infinite : Bool) : CapVbap :=
  ⟨⟨[⟨1, 0, 0⟩, ⟨0, 1, 5⟩], 2, [(0, 1, 0)], true, fun _ _ => 0, ⟨0, 0, 0⟩, []⟩, infinite, true, -1, []⟩

/-- C58: the hypotheses of `vbip_inside_2D` and `vbip_outside_2D` are met. -/
example : ∃ v, (quarter false).setListener (1 / 1000) ⟨0, 0, 7⟩ = .ok v ∧
    (∀ l ∈ (quarter false).base.positions, 1 / 1000 ≤ ((flat l).sub (flat (eye false ⟨0, 0, 7⟩))).norm) ∧
    (∀ t ∈ (quarter false).base.triplets,
      Vbap.Proper2 ((quarter false).base.positions.map flat) (flat (eye false ⟨0, 0, 7⟩)) t) ∧
    (∃ t ∈ (quarter false).base.triplets,
      Vbap.InSector ((quarter false).base.positions.map flat) (flat (eye false ⟨0, 0, 7⟩)) t ⟨1, 2, 3⟩) ∧
    ∀ t ∈ (quarter false).base.triplets,
      ¬ Vbap.InSector ((quarter false).base.positions.map flat) (flat (eye false ⟨0, 0, 7⟩)) t ⟨-1, 2, 3⟩ := by
  have n1 : (⟨1, 0, 0⟩ : Vec ℝ).norm = 1 := norm_one (by norm_num)
  have n2 : (⟨0, 1, 0⟩ : Vec ℝ).norm = 1 := norm_one (by norm_num)
  have d1 : Vbap.direction ⟨0, 0, 0⟩ ⟨1, 0, 0⟩ = ⟨1, 0, 0⟩ := by simp [Vbap.direction, sub_origin, n1, Vec.scale]
  have d2 : Vbap.direction ⟨0, 0, 0⟩ ⟨0, 1, 0⟩ = ⟨0, 1, 0⟩ := by simp [Vbap.direction, sub_origin, n2, Vec.scale]
  refine ⟨_, rfl, ?_, ?_, ?_, ?_⟩
  · simp only [quarter, flat, eye, List.mem_cons, List.not_mem_nil, or_false, Bool.false_eq_true, if_false]
    rintro l (rfl | rfl)
    · simp only [sub_origin, n1]; norm_num
    · simp only [sub_origin, n2]; norm_num
  · simp [quarter, Vbap.Proper2, flat, eye, d1, d2]
  · exact ⟨(0, 1, 0), by simp [quarter], 1, 2, by norm_num, by norm_num, by simp [quarter, flat, eye, d1, d2]⟩
  · simp only [quarter, List.mem_singleton, forall_eq]
    rintro ⟨a, b, ha, hb, h1, h2⟩
    simp [flat, eye, d1, d2] at h1
    linarith

/-- C58: the hypotheses of the theorems about infinite arrays are met. -/
example : ∃ v, ({ triangle with arrayInfinite := true } : CapVbap).setListener (1 / 1000) ⟨3, 4, 5⟩ = .ok v ∧
    (∀ l ∈ triangle.base.positions, 1 / 1000 ≤ l.norm) ∧
    ∀ t ∈ triangle.base.triplets, Vbap.Proper triangle.base.positions ⟨0, 0, 0⟩ t := by
  have n1 : (⟨1, 0, 0⟩ : Vec ℝ).norm = 1 := norm_one (by norm_num)
  have n2 : (⟨0, 1, 0⟩ : Vec ℝ).norm = 1 := norm_one (by norm_num)
  have n3 : (⟨0, 0, 1⟩ : Vec ℝ).norm = 1 := norm_one (by norm_num)
  have d1 : Vbap.direction ⟨0, 0, 0⟩ ⟨1, 0, 0⟩ = ⟨1, 0, 0⟩ := by simp [Vbap.direction, sub_origin, n1, Vec.scale]
  have d2 : Vbap.direction ⟨0, 0, 0⟩ ⟨0, 1, 0⟩ = ⟨0, 1, 0⟩ := by simp [Vbap.direction, sub_origin, n2, Vec.scale]
  have d3 : Vbap.direction ⟨0, 0, 0⟩ ⟨0, 0, 1⟩ = ⟨0, 0, 1⟩ := by simp [Vbap.direction, sub_origin, n3, Vec.scale]
  refine ⟨_, rfl, ?_, ?_⟩
  · simp only [triangle, List.mem_cons, List.not_mem_nil, or_false]
    rintro l (rfl | rfl | rfl)
    · rw [n1]; norm_num
    · rw [n2]; norm_num
    · rw [n3]; norm_num
  · simp [triangle, Vbap.Proper, d1, d2, d3, Vbap.triple]

end Visr.Cap
