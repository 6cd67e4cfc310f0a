import Verif.Vbap.Lemmas

/-!
# C37: VBAP gains point at the source with unit power

`v0.setListener eps p = .ok v` is a panner `v` after any history (`v0`) and a new listener
position `p`; the constructor is the special case of `v0` without matrices.
-/

namespace Visr.Vbap

open Visr Visr.Rotation

variable {eps : ℝ}

/-! ### Lemmas about the panner -/

theorem corner_eq {v : Vbap} {i : ℕ} (hi : i < v.positions.length)
    (hd : ∀ l ∈ v.positions, eps ≤ (l.sub v.listener).norm) :
    corner eps v i = some (direction v.listener (v.positions.getD i ⟨0, 0, 0⟩)) := by
  have e : v.positions[i]? = some v.positions[i] := List.getElem?_eq_getElem hi
  have e2 : v.positions.getD i ⟨0, 0, 0⟩ = v.positions[i] := by simp [hi]
  unfold corner
  rw [e, e2]
  simp only [Option.map_some]
  rw [normalise_eq_direction (hd _ (List.getElem_mem hi))]

/-- The search finds a triplet of the list. -/
theorem plain_of_search {v : Vbap} {src : Vec ℝ} {pw : Bool} {f : Found} {t : ℕ × ℕ × ℕ}
    (hs : search v.is2D (relative v src pw) v.inv 0 none = some f) (ht : v.triplets[f.j]? = some t)
    (h1 : t.1 < v.positions.length) (h2 : t.2.1 < v.positions.length)
    (h3 : v.is2D = false → t.2.2 < v.positions.length) :
    plain v src pw = .ok
      (if v.is2D then Function.update (Function.update (fun _ => 0) t.1 f.g1) t.2.1 f.g2
        else Function.update (Function.update (Function.update (fun _ => 0) t.1 f.g1) t.2.1 f.g2) t.2.2 f.g3) := by
  unfold plain
  rw [hs]
  dsimp only
  rw [ht]
  dsimp only
  rw [if_pos ⟨h1, h2, h3⟩]

/-! ### Properties -/

/-- C37, directions: if no triplet is degenerate and the source lies in the cone of some
triplet, the gains of all loudspeakers are non-negative, vanish outside one triplet whose
cone contains the source, and the gain-weighted directions sum to the source vector. -/
theorem inside_exact {v0 v : Vbap} {p : Vec ℝ} (hv : v0.setListener eps p = .ok v) (h2d : v0.is2D = false)
    (hd : ∀ l ∈ v0.positions, eps ≤ (l.sub p).norm)
    (hp : ∀ t ∈ v0.triplets, Proper v0.positions p t) (src : Vec ℝ) (planeWave : Bool) (s : Vec ℝ)
    (hs : s = if planeWave then src else src.sub p)
    (hin : ∃ t ∈ v0.triplets, InCone v0.positions p t s) :
    ∃ g, plain v src planeWave = .ok g ∧ (∀ i, 0 ≤ g i) ∧ SumsTo v0.positions p g s ∧
      ∃ t ∈ v0.triplets, InCone v0.positions p t s ∧ ∀ i, i ≠ t.1 → i ≠ t.2.1 → i ≠ t.2.2 → g i = 0 := by
  obtain ⟨v1, v2, v3, v4, v5, v6, v7, v8⟩ := setListener_spec hv
  have hrel : relative v src planeWave = s := by
    unfold relative
    rw [v4, h2d, v6, hs]
    simp
  have hinv : ∀ (j : ℕ) (t : ℕ × ℕ × ℕ), v0.triplets[j]? = some t →
      v.inv[j]? = some (inverse (direction p (v0.positions.getD t.1 ⟨0, 0, 0⟩))
        (direction p (v0.positions.getD t.2.1 ⟨0, 0, 0⟩)) (direction p (v0.positions.getD t.2.2 ⟨0, 0, 0⟩))) := by
    intro j t ht
    obtain ⟨y, hy1, hy2⟩ := v8 j t ht
    obtain ⟨b1, b2, b3, -⟩ := hp t (List.mem_of_getElem? ht)
    rw [hy2, ← hy1]
    have c1 := corner_eq (v := { v0 with listener := p }) (eps := eps) b1 hd
    have c2 := corner_eq (v := { v0 with listener := p }) (eps := eps) b2 hd
    have c3 := corner_eq (v := { v0 with listener := p }) (eps := eps) b3 hd
    have c4 : thirdCorner eps { v0 with listener := p } t.2.2 = corner eps { v0 with listener := p } t.2.2 :=
      if_neg (by simp [h2d])
    unfold invOf
    rw [c4, c1, c2, c3]
  -- a triplet is inside
  have hex : ∃ (k : ℕ) (i : Inv), v.inv[k]? = some i ∧ Inside false (gainsOf s i (0 + k)) := by
    obtain ⟨t, ht, a, b, c, ha, hb, hc, hcomb⟩ := hin
    obtain ⟨k, hk⟩ := List.getElem?_of_mem ht
    refine ⟨k, _, hinv k t hk, ?_⟩
    rw [gainsOf_unique (hp t ht).2.2.2 hcomb]
    exact ⟨ha, hb, .inl hc⟩
  obtain ⟨k, i, hk, hi, hse, -⟩ := search_inside false s v.inv 0 none hex
  have hkl : k < v0.triplets.length := by
    rw [← v7]; exact (List.getElem?_eq_some_iff.mp hk).1
  have htk : v0.triplets[k]? = some v0.triplets[k] := List.getElem?_eq_getElem hkl
  generalize v0.triplets[k] = t at htk
  have htm : t ∈ v0.triplets := List.mem_of_getElem? htk
  obtain ⟨b1, b2, b3, hne⟩ := hp t htm
  have ei := hinv k t htk
  rw [hk] at ei
  injection ei with ei
  have hcomb := gainsOf_combination hne s (0 + k)
  rw [← ei] at hcomb
  obtain ⟨g1, g2, g3⟩ := hi
  have g3 : 0 ≤ (gainsOf s i (0 + k)).g3 := by rcases g3 with g3 | g3; exact g3; cases g3
  have n12 : t.1 ≠ t.2.1 := by
    intro e; apply hne; rw [e]; unfold triple; ring
  have n13 : t.1 ≠ t.2.2 := by
    intro e; apply hne; rw [e]; unfold triple; ring
  have n23 : t.2.1 ≠ t.2.2 := by
    intro e; apply hne; rw [e]; unfold triple; ring
  have hpl := plain_of_search (v := v) (src := src) (pw := planeWave) (f := gainsOf s i (0 + k)) (t := t)
    (by rw [v4, h2d, hrel]; exact hse) (by rw [v3]; simpa [gainsOf] using htk) (by rw [v1]; exact b1)
    (by rw [v1]; exact b2) (by rw [v1]; intro _; exact b3)
  rw [v4, h2d] at hpl
  simp only [Bool.false_eq_true, if_false] at hpl
  refine ⟨_, hpl, ?_, ?_, t, htm, ⟨_, _, _, g1, g2, g3, hcomb⟩, ?_⟩
  · intro x
    by_cases e3 : x = t.2.2
    · rw [e3, Function.update_self]; exact g3
    · rw [Function.update_of_ne e3]
      by_cases e2 : x = t.2.1
      · rw [e2, Function.update_self]; exact g2
      · rw [Function.update_of_ne e2]
        by_cases e1 : x = t.1
        · rw [e1, Function.update_self]; exact g1
        · rw [Function.update_of_ne e1]
  · unfold SumsTo
    rw [sum_three _ _ _ _ b1 b2 b3 n12 n13 n23, sum_three _ _ _ _ b1 b2 b3 n12 n13 n23,
      sum_three _ _ _ _ b1 b2 b3 n12 n13 n23]
    exact ⟨hcomb.1.symm, hcomb.2.1.symm, hcomb.2.2.symm⟩
  · intro x x1 x2 x3
    rw [Function.update_of_ne x3, Function.update_of_ne x2, Function.update_of_ne x1]

/-- C37 for two-dimensional arrays: with all loudspeakers at the height of the listener
(which must not be 1, see `height_one_is_silent`), the gains point at the projection of the source
to the horizontal plane. -/
theorem inside_exact_2D {v0 v : Vbap} {p : Vec ℝ} (hv : v0.setListener eps p = .ok v) (h2d : v0.is2D = true)
    (heps : 0 < eps) (hd : ∀ l ∈ v0.positions, eps ≤ (l.sub p).norm) (hz : p.z ≠ 1)
    (hp : ∀ t ∈ v0.triplets, Proper2 v0.positions p t) (src : Vec ℝ) (planeWave : Bool) (s : Vec ℝ)
    (hs : s = if planeWave then src else src.sub p)
    (hin : ∃ t ∈ v0.triplets, InSector v0.positions p t s) :
    ∃ g, plain v src planeWave = .ok g ∧ (∀ i, 0 ≤ g i) ∧ SumsTo v0.positions p g ⟨s.x, s.y, 0⟩ ∧
      ∃ t ∈ v0.triplets, InSector v0.positions p t s ∧ ∀ i, i ≠ t.1 → i ≠ t.2.1 → g i = 0 := by
  obtain ⟨v1, v2, v3, v4, v5, v6, v7, v8⟩ := setListener_spec hv
  have hrel : relative v src planeWave = ⟨s.x, s.y, 0⟩ := by
    unfold relative
    rw [v4, h2d, v6, hs]
    simp
  obtain ⟨κ, hκ, hw⟩ := normalise_multiple heps ((⟨0, 0, 1⟩ : Vec ℝ).sub p)
  set w : Vec ℝ := normalise eps ((⟨0, 0, 1⟩ : Vec ℝ).sub p) with hwdef
  have hwz : w.z ≠ 0 := by
    rw [hw]
    simp only [Vec.scale, Vec.sub]
    exact mul_ne_zero hκ.ne' (sub_ne_zero.mpr hz.symm)
  have hinv : ∀ (j : ℕ) (t : ℕ × ℕ × ℕ), v0.triplets[j]? = some t →
      v.inv[j]? = some (inverse (direction p (v0.positions.getD t.1 ⟨0, 0, 0⟩))
        (direction p (v0.positions.getD t.2.1 ⟨0, 0, 0⟩)) w) := by
    intro j t ht
    obtain ⟨y, hy1, hy2⟩ := v8 j t ht
    obtain ⟨b1, b2, -⟩ := hp t (List.mem_of_getElem? ht)
    rw [hy2, ← hy1]
    have c1 := corner_eq (v := { v0 with listener := p }) (eps := eps) b1 hd
    have c2 := corner_eq (v := { v0 with listener := p }) (eps := eps) b2 hd
    have c4 : thirdCorner eps { v0 with listener := p } t.2.2 = some w := if_pos h2d
    unfold invOf
    rw [c4, c1, c2]
  have htr : ∀ t, Proper2 v0.positions p t → triple (direction p (v0.positions.getD t.1 ⟨0, 0, 0⟩))
      (direction p (v0.positions.getD t.2.1 ⟨0, 0, 0⟩)) w ≠ 0 := by
    rintro t ⟨-, -, z1, z2, hne⟩
    have e1 := direction_z z1
    have e2 := direction_z z2
    unfold triple
    rw [e1, e2]
    intro h0
    exact mul_ne_zero hwz hne (by linear_combination h0)
  have hex : ∃ (k : ℕ) (i : Inv), v.inv[k]? = some i ∧ Inside true (gainsOf ⟨s.x, s.y, 0⟩ i (0 + k)) := by
    obtain ⟨t, ht, a, b, ha, hb, hx, hy⟩ := hin
    obtain ⟨k, hk⟩ := List.getElem?_of_mem ht
    refine ⟨k, _, hinv k t hk, ?_⟩
    have hc : Combination ⟨s.x, s.y, 0⟩ a b 0 (direction p (v0.positions.getD t.1 ⟨0, 0, 0⟩))
        (direction p (v0.positions.getD t.2.1 ⟨0, 0, 0⟩)) w :=
      ⟨by simpa using hx, by simpa using hy, by
        rw [direction_z (hp t ht).2.2.1, direction_z (hp t ht).2.2.2.1]; ring⟩
    rw [gainsOf_unique (htr t (hp t ht)) hc]
    exact ⟨ha, hb, .inr rfl⟩
  obtain ⟨k, i, hk, hi, hse, -⟩ := search_inside true ⟨s.x, s.y, 0⟩ v.inv 0 none hex
  have hkl : k < v0.triplets.length := by
    rw [← v7]; exact (List.getElem?_eq_some_iff.mp hk).1
  have htk : v0.triplets[k]? = some v0.triplets[k] := List.getElem?_eq_getElem hkl
  generalize v0.triplets[k] = t at htk
  have htm : t ∈ v0.triplets := List.mem_of_getElem? htk
  have hpt := hp t htm
  have hpt' := hpt
  obtain ⟨b1, b2, z1, z2, hne⟩ := hpt'
  have ei := hinv k t htk
  rw [hk] at ei
  injection ei with ei
  have hcomb := gainsOf_combination (htr t hpt) ⟨s.x, s.y, 0⟩ (0 + k)
  rw [← ei] at hcomb
  obtain ⟨cx, cy, cz⟩ := hcomb
  obtain ⟨g1, g2, -⟩ := hi
  have g3 : (gainsOf ⟨s.x, s.y, 0⟩ i (0 + k)).g3 = 0 := by
    rw [direction_z z1, direction_z z2] at cz
    simp only [mul_zero, zero_add] at cz
    rcases mul_eq_zero.mp cz.symm with h | h
    · exact h
    · exact absurd h hwz
  rw [g3] at cx cy cz
  have n12 : t.1 ≠ t.2.1 := by
    intro e; apply hne; rw [e]; ring
  have hpl := plain_of_search (v := v) (src := src) (pw := planeWave) (f := gainsOf ⟨s.x, s.y, 0⟩ i (0 + k)) (t := t)
    (by rw [v4, h2d, hrel]; exact hse) (by rw [v3]; simpa [gainsOf] using htk) (by rw [v1]; exact b1)
    (by rw [v1]; exact b2) (by rw [v4, h2d]; simp)
  rw [v4, h2d] at hpl
  simp only [if_true] at hpl
  refine ⟨_, hpl, ?_, ?_, t, htm, ⟨_, _, g1, g2, by simpa using cx, by simpa using cy⟩, ?_⟩
  · intro x
    by_cases e2 : x = t.2.1
    · rw [e2, Function.update_self]; exact g2
    · rw [Function.update_of_ne e2]
      by_cases e1 : x = t.1
      · rw [e1, Function.update_self]; exact g1
      · rw [Function.update_of_ne e1]
  · unfold SumsTo
    rw [sum_two _ _ _ b1 b2 n12, sum_two _ _ _ b1 b2 n12, sum_two _ _ _ b1 b2 n12]
    refine ⟨by simpa using cx.symm, by simpa using cy.symm, ?_⟩
    rw [direction_z z1, direction_z z2]
    simp
  · intro x x1 x2
    rw [Function.update_of_ne x2, Function.update_of_ne x1]

theorem rerouteLoop_sum (v : Vbap) (g : ℕ → ℝ) (i n : ℕ) :
    rerouteLoop v g i n = g i + ∑ j ∈ Finset.range n, v.rerouting j i * g (v.regular + j) := by
  induction n with
  | zero => simp [rerouteLoop]
  | succ n ih => rw [rerouteLoop, ih, Finset.sum_range_succ]; ring

/-- C37, virtual loudspeakers: the result for a regular loudspeaker is its own gain and the
gains of all virtual loudspeakers times their routing coefficients. -/
theorem rerouted (v : Vbap) (src : Vec ℝ) (planeWave : Bool) (g : ℕ → ℝ) (h : plain v src planeWave = .ok g) :
    ∃ out, gainsUnNormalised v src planeWave = .ok out ∧ out.length = v.regular ∧
      ∀ i (hi : i < out.length), out[i] =
        g i + ∑ j ∈ Finset.range (v.positions.length - v.regular), v.rerouting j i * g (v.regular + j) := by
  refine ⟨(List.range v.regular).map (reroute v g), by unfold gainsUnNormalised; rw [h], by simp, ?_⟩
  intro i hi
  simp only [List.getElem_map, List.getElem_range]
  exact rerouteLoop_sum v g i _

/-- C37, without virtual loudspeakers the result is the gain itself. -/
theorem no_virtual (v : Vbap) (hr : v.regular = v.positions.length) (src : Vec ℝ) (planeWave : Bool) (g : ℕ → ℝ)
    (h : plain v src planeWave = .ok g) :
    gainsUnNormalised v src planeWave = .ok ((List.range v.positions.length).map g) := by
  unfold gainsUnNormalised
  rw [h, hr]
  dsimp only
  congr 1
  refine List.map_congr_left fun i _ => ?_
  unfold reroute
  rw [hr, Nat.sub_self]
  rfl

/-- C37, normalisation: the normalised gains are the gains times a positive factor, and if
the power of the gains is at least the machine epsilon squared, they have unit power. -/
theorem normalised (heps : 0 < eps) (v : Vbap) (src : Vec ℝ) (planeWave : Bool) (g : List ℝ)
    (h : gainsUnNormalised v src planeWave = .ok g) :
    ∃ k : ℝ, 0 < k ∧ gains eps v src planeWave = .ok (g.map fun x => k * x) ∧
      (eps ^ 2 ≤ power g → power (g.map fun x => k * x) = 1) := by
  have hm : 0 < max (Real.sqrt (0 + power g)) eps := lt_max_of_lt_right heps
  refine ⟨1 / max (Real.sqrt (0 + power g)) eps, by positivity, ?_, ?_⟩
  · unfold gains
    rw [h]
    simp only [powerNormalise, foldl_squares]
  · intro hp
    rw [power_scale]
    have hle : eps ≤ Real.sqrt (0 + power g) := by
      rw [zero_add]; exact Real.le_sqrt_of_sq_le hp
    rw [max_eq_left hle, zero_add, one_div, inv_pow, Real.sq_sqrt (power_nonneg g)]
    refine inv_mul_cancel₀ ?_
    have : 0 < eps ^ 2 := by positivity
    linarith

/-- C37, unit power: for an array without virtual loudspeakers, a source in the cone of a
triplet, farther from the listener than twice the machine epsilon, has gains of unit power. -/
theorem inside_unit_power {v0 v : Vbap} {p : Vec ℝ} (hv : v0.setListener eps p = .ok v) (h2d : v0.is2D = false)
    (heps : 0 < eps) (hr : v0.regular = v0.positions.length)
    (hd : ∀ l ∈ v0.positions, eps ≤ (l.sub p).norm)
    (hp : ∀ t ∈ v0.triplets, Proper v0.positions p t) (src : Vec ℝ) (planeWave : Bool) (s : Vec ℝ)
    (hs : s = if planeWave then src else src.sub p)
    (hin : ∃ t ∈ v0.triplets, InCone v0.positions p t s) (hfar : 2 * eps ≤ s.norm) :
    ∃ g, gains eps v src planeWave = .ok g ∧ power g = 1 ∧ (∀ x ∈ g, 0 ≤ x) ∧
      ∃ r : ℝ, 0 < r ∧ SumsTo v0.positions p (fun i => g.getD i 0) (s.scale r) := by
  obtain ⟨v1, v2, -, -, -, -, -, -⟩ := setListener_spec hv
  obtain ⟨g, hg, hnn, hsum, t, ht, -, hz⟩ := inside_exact hv h2d hd hp src planeWave s hs hin
  have hu := no_virtual v (by rw [v2, v1, hr]) src planeWave g hg
  obtain ⟨k, hk, hgk, hpow⟩ := normalised heps v src planeWave _ hu
  obtain ⟨b1, b2, b3, hne⟩ := hp t ht
  have n12 : t.1 ≠ t.2.1 := by
    intro e; apply hne; rw [e]; unfold triple; ring
  have n13 : t.1 ≠ t.2.2 := by
    intro e; apply hne; rw [e]; unfold triple; ring
  have n23 : t.2.1 ≠ t.2.2 := by
    intro e; apply hne; rw [e]; unfold triple; ring
  -- the gains as an update of three elements
  have hgu : g = Function.update (Function.update (Function.update (fun _ => 0) t.1 (g t.1)) t.2.1 (g t.2.1))
      t.2.2 (g t.2.2) := by
    funext x
    by_cases e3 : x = t.2.2
    · rw [e3, Function.update_self]
    · rw [Function.update_of_ne e3]
      by_cases e2 : x = t.2.1
      · rw [e2, Function.update_self]
      · rw [Function.update_of_ne e2]
        by_cases e1 : x = t.1
        · rw [e1, Function.update_self]
        · rw [Function.update_of_ne e1]; exact hz x e1 e2 e3
  have sum3 : ∀ F : ℕ → ℝ, ∑ i ∈ Finset.range v0.positions.length, g i * F i =
      g t.1 * F t.1 + g t.2.1 * F t.2.1 + g t.2.2 * F t.2.2 := by
    intro F
    have := sum_three v0.positions.length t.1 t.2.1 t.2.2 b1 b2 b3 n12 n13 n23 (g t.1) (g t.2.1) (g t.2.2) F
    rw [← hgu] at this
    exact this
  have hpower : power ((List.range v.positions.length).map g) = g t.1 ^ 2 + g t.2.1 ^ 2 + g t.2.2 ^ 2 := by
    rw [v1, power_range, sum3]; ring
  have hbig : eps ^ 2 ≤ power ((List.range v.positions.length).map g) := by
    rw [hpower]
    have hdist : ∀ i, i < v0.positions.length →
        (direction p (v0.positions.getD i ⟨0, 0, 0⟩)).x ^ 2 + (direction p (v0.positions.getD i ⟨0, 0, 0⟩)).y ^ 2 +
          (direction p (v0.positions.getD i ⟨0, 0, 0⟩)).z ^ 2 = 1 := by
      intro i hi
      apply direction_norm
      have e2 : v0.positions.getD i ⟨0, 0, 0⟩ = v0.positions[i] := by simp [hi]
      rw [e2]
      exact lt_of_lt_of_le heps (hd _ (List.getElem_mem hi))
    obtain ⟨sx, sy, sz⟩ := hsum
    rw [sum3] at sx sy sz
    have hn : s.norm ^ 2 = s.x ^ 2 + s.y ^ 2 + s.z ^ 2 := by
      unfold Vec.norm
      rw [Real.sq_sqrt]
      · unfold Vec.normSquare; ring
      · unfold Vec.normSquare; nlinarith [sq_nonneg s.x, sq_nonneg s.y, sq_nonneg s.z]
    have h1 := hdist t.1 b1
    have h2 := hdist t.2.1 b2
    have h3 := hdist t.2.2 b3
    generalize direction p (v0.positions.getD t.1 ⟨0, 0, 0⟩) = u1 at *
    generalize direction p (v0.positions.getD t.2.1 ⟨0, 0, 0⟩) = u2 at *
    generalize direction p (v0.positions.getD t.2.2 ⟨0, 0, 0⟩) = u3 at *
    have cx := cauchy3 (g t.1) (g t.2.1) (g t.2.2) u1.x u2.x u3.x
    have cy := cauchy3 (g t.1) (g t.2.1) (g t.2.2) u1.y u2.y u3.y
    have cz := cauchy3 (g t.1) (g t.2.1) (g t.2.2) u1.z u2.z u3.z
    rw [sx] at cx
    rw [sy] at cy
    rw [sz] at cz
    have h4 : (2 * eps) ^ 2 ≤ s.norm ^ 2 := by
      have : 0 ≤ 2 * eps := by positivity
      nlinarith
    have htot : s.norm ^ 2 ≤ 3 * (g t.1 ^ 2 + g t.2.1 ^ 2 + g t.2.2 ^ 2) := by
      rw [hn]
      have : (g t.1 ^ 2 + g t.2.1 ^ 2 + g t.2.2 ^ 2) * (u1.x ^ 2 + u2.x ^ 2 + u3.x ^ 2) +
          (g t.1 ^ 2 + g t.2.1 ^ 2 + g t.2.2 ^ 2) * (u1.y ^ 2 + u2.y ^ 2 + u3.y ^ 2) +
          (g t.1 ^ 2 + g t.2.1 ^ 2 + g t.2.2 ^ 2) * (u1.z ^ 2 + u2.z ^ 2 + u3.z ^ 2) =
          3 * (g t.1 ^ 2 + g t.2.1 ^ 2 + g t.2.2 ^ 2) := by
        linear_combination (g t.1 ^ 2 + g t.2.1 ^ 2 + g t.2.2 ^ 2) * h1 +
          (g t.1 ^ 2 + g t.2.1 ^ 2 + g t.2.2 ^ 2) * h2 + (g t.1 ^ 2 + g t.2.1 ^ 2 + g t.2.2 ^ 2) * h3
      linarith
    have : 0 ≤ eps ^ 2 := by positivity
    nlinarith
  refine ⟨_, hgk, hpow hbig, ?_, k, hk, ?_⟩
  · intro x hx
    simp only [List.map_map, List.mem_map, List.mem_range, Function.comp_apply] at hx
    obtain ⟨i, -, rfl⟩ := hx
    exact mul_nonneg hk.le (hnn i)
  · have hget : ∀ i, i < v0.positions.length →
        (List.map (fun x => k * x) (List.map g (List.range v.positions.length))).getD i 0 = k * g i := by
      intro i hi
      rw [v1]
      simp [hi]
    obtain ⟨sx, sy, sz⟩ := hsum
    have hcoord : ∀ F : ℕ → ℝ, ∑ i ∈ Finset.range v0.positions.length,
        (List.map (fun x => k * x) (List.map g (List.range v.positions.length))).getD i 0 * F i =
        k * ∑ i ∈ Finset.range v0.positions.length, g i * F i := by
      intro F
      rw [Finset.mul_sum]
      refine Finset.sum_congr rfl fun i hi => ?_
      rw [hget i (Finset.mem_range.mp hi)]; ring
    unfold SumsTo
    rw [hcoord, hcoord, hcoord, sx, sy, sz]
    exact ⟨rfl, rfl, rfl⟩

/-- C37, sources in no cone: with triplet indices in range, the panner throws if every
triplet has at least two negative gains; otherwise it uses a triplet whose smallest gain is the largest one
among the triplets with at most one negative gain. -/
theorem outside_best {v0 v : Vbap} {p : Vec ℝ} (hv : v0.setListener eps p = .ok v) (src : Vec ℝ) (planeWave : Bool)
    (hidx : ∀ t ∈ v0.triplets, t.1 < v0.positions.length ∧ t.2.1 < v0.positions.length ∧
      (v0.is2D = false → t.2.2 < v0.positions.length))
    (hout : ∀ (k : ℕ) (i : Inv), v.inv[k]? = some i → ¬ Inside v.is2D (gainsOf (relative v src planeWave) i k)) :
    (plain v src planeWave = .throw .runtimeError ∧
      ∀ (k : ℕ) (i : Inv), v.inv[k]? = some i → 1 < (gainsOf (relative v src planeWave) i k).negatives) ∨
    ∃ (k : ℕ) (i : Inv) (t : ℕ × ℕ × ℕ) (g : ℕ → ℝ), v.inv[k]? = some i ∧ v0.triplets[k]? = some t ∧
      plain v src planeWave = .ok g ∧
      (gainsOf (relative v src planeWave) i k).negatives ≤ 1 ∧
      (t.1 ≠ t.2.1 → t.1 ≠ t.2.2 → t.2.1 ≠ t.2.2 →
        g t.1 = (gainsOf (relative v src planeWave) i k).g1 ∧
        g t.2.1 = (gainsOf (relative v src planeWave) i k).g2 ∧
        (v.is2D = false → g t.2.2 = (gainsOf (relative v src planeWave) i k).g3)) ∧
      (∀ x, x ≠ t.1 → x ≠ t.2.1 → x ≠ t.2.2 → g x = 0) ∧
      ∀ (k' : ℕ) (i' : Inv), v.inv[k']? = some i' →
        (gainsOf (relative v src planeWave) i' k').negatives ≤ 1 →
        (gainsOf (relative v src planeWave) i' k').gmin ≤ (gainsOf (relative v src planeWave) i k).gmin := by
  obtain ⟨v1, v2, v3, v4, v5, v6, v7, v8⟩ := setListener_spec hv
  have hso := search_outside v.is2D (relative v src planeWave) v.inv 0 none (by simpa using hout)
  simp only [Nat.zero_add] at hso
  cases hs : search v.is2D (relative v src planeWave) v.inv 0 none with
  | none =>
    rw [hs] at hso
    refine .inl ⟨?_, hso.2⟩
    unfold plain
    rw [hs]
  | some f =>
    rw [hs] at hso
    obtain ⟨h1, -, h3⟩ := hso
    rcases h1 with h1 | ⟨k, i, hk, rfl, hneg⟩
    · cases h1
    · have hkl : k < v0.triplets.length := by
        rw [← v7]; exact (List.getElem?_eq_some_iff.mp hk).1
      have htk : v0.triplets[k]? = some v0.triplets[k] := List.getElem?_eq_getElem hkl
      generalize v0.triplets[k] = t at htk
      obtain ⟨b1, b2, b3⟩ := hidx t (List.mem_of_getElem? htk)
      have hpl := plain_of_search hs (t := t) (by rw [v3]; exact htk) (by rw [v1]; exact b1)
        (by rw [v1]; exact b2) (by rw [v1, v4]; exact b3)
      refine .inr ⟨k, i, t, _, hk, htk, hpl, hneg, ?_, ?_, h3⟩
      · intro n12 n13 n23
        cases v.is2D
        · simp only [Bool.false_eq_true, if_false]
          exact ⟨by rw [Function.update_of_ne n13, Function.update_of_ne n12, Function.update_self],
            by rw [Function.update_of_ne n23, Function.update_self], fun _ => Function.update_self ..⟩
        · simp only [if_true]
          exact ⟨by rw [Function.update_of_ne n12, Function.update_self], Function.update_self .., by simp⟩
      · intro x x1 x2 x3
        cases v.is2D
        · simp only [Bool.false_eq_true, if_false]
          rw [Function.update_of_ne x3, Function.update_of_ne x2, Function.update_of_ne x1]
        · simp only [if_true]
          rw [Function.update_of_ne x2, Function.update_of_ne x1]

/-- The constructor succeeds if the triplets contain valid indices. -/
theorem create_ok (positions : List (Vec ℝ)) (regular : ℕ) (triplets : List (ℕ × ℕ × ℕ)) (is2D : Bool)
    (rerouting : ℕ → ℕ → ℝ) (p : Vec ℝ)
    (h : ∀ t ∈ triplets, t.1 < positions.length ∧ t.2.1 < positions.length ∧
      (is2D = false → t.2.2 < positions.length)) :
    ∃ v, Vbap.create eps positions regular triplets is2D rerouting p = .ok v := by
  have hm : ∀ (v1 : Vbap) (ts : List (ℕ × ℕ × ℕ)), v1.positions = positions → v1.is2D = is2D →
      (∀ t ∈ ts, t.1 < positions.length ∧ t.2.1 < positions.length ∧
        (is2D = false → t.2.2 < positions.length)) → ∃ r, ts.mapM (invOf eps v1) = some r := by
    intro v1 ts hp h2 hts
    induction ts with
    | nil => exact ⟨[], rfl⟩
    | cons t ts ih =>
      obtain ⟨r, hr⟩ := ih (fun t ht => hts t (by simp [ht]))
      obtain ⟨b1, b2, b3⟩ := hts t (by simp)
      have hc : ∀ i, i < positions.length → ∃ c, corner eps v1 i = some c := by
        intro i hi
        unfold corner
        rw [hp, List.getElem?_eq_getElem hi]
        exact ⟨_, rfl⟩
      obtain ⟨c1, e1⟩ := hc _ b1
      obtain ⟨c2, e2⟩ := hc _ b2
      have hc3 : ∃ c3, thirdCorner eps v1 t.2.2 = some c3 := by
        unfold thirdCorner
        rw [h2]
        cases is2D
        · simpa using hc _ (b3 rfl)
        · exact ⟨_, rfl⟩
      obtain ⟨c3, e3⟩ := hc3
      refine ⟨inverse c1 c2 c3 :: r, ?_⟩
      simp [List.mapM_cons, invOf, e1, e2, e3, hr]
  unfold Vbap.create Vbap.setListener
  dsimp only
  obtain ⟨r, hr⟩ := hm ⟨positions, regular, triplets, is2D, rerouting, p, []⟩ triplets rfl rfl h
  rw [hr]
  exact ⟨_, rfl⟩

/-! ### Findings -/

/-- Finding: a triplet in a plane with the listener (for example three loudspeakers around the
listener at ear height, which close an array at the bottom) gets the determinant 1. If it
comes first, it captures every source above that plane: the gains of all other loudspeakers are zero, and
the gains do not point at the source. -/
theorem flat_triplet_hides {v0 v : Vbap} {p : Vec ℝ} (hv : v0.setListener eps p = .ok v) (h2d : v0.is2D = false)
    (hd : ∀ l ∈ v0.positions, eps ≤ (l.sub p).norm) (t : ℕ × ℕ × ℕ) (ts : List (ℕ × ℕ × ℕ))
    (ht : v0.triplets = t :: ts) (b1 : t.1 < v0.positions.length) (b2 : t.2.1 < v0.positions.length)
    (b3 : t.2.2 < v0.positions.length) (u1 u2 u3 : Vec ℝ)
    (h1 : u1 = direction p (v0.positions.getD t.1 ⟨0, 0, 0⟩))
    (h2 : u2 = direction p (v0.positions.getD t.2.1 ⟨0, 0, 0⟩))
    (h3 : u3 = direction p (v0.positions.getD t.2.2 ⟨0, 0, 0⟩))
    (z1 : u1.z = 0) (z2 : u2.z = 0) (z3 : u3.z = 0)
    (c12 : 0 < u1.x * u2.y - u1.y * u2.x) (c23 : 0 < u2.x * u3.y - u2.y * u3.x)
    (c31 : 0 < u3.x * u1.y - u3.y * u1.x)
    (src : Vec ℝ) (planeWave : Bool) (s : Vec ℝ) (hs : s = if planeWave then src else src.sub p) (hz : 0 < s.z) :
    ∃ g, plain v src planeWave = .ok g ∧ (∀ x, x ≠ t.1 → x ≠ t.2.1 → x ≠ t.2.2 → g x = 0) ∧
      ¬ SumsTo v0.positions p g s := by
  obtain ⟨v1, v2, v3, v4, v5, v6, v7, v8⟩ := setListener_spec hv
  have hrel : relative v src planeWave = s := by
    unfold relative
    rw [v4, h2d, v6, hs]
    simp
  obtain ⟨y, hy1, hy2⟩ := v8 0 t (by rw [ht]; rfl)
  have k1 := corner_eq (v := { v0 with listener := p }) (eps := eps) b1 hd
  have k2 := corner_eq (v := { v0 with listener := p }) (eps := eps) b2 hd
  have k3 := corner_eq (v := { v0 with listener := p }) (eps := eps) b3 hd
  have k4 : thirdCorner eps { v0 with listener := p } t.2.2 = corner eps { v0 with listener := p } t.2.2 :=
    if_neg (by simp [h2d])
  unfold invOf at hy1
  rw [k4, k1, k2, k3] at hy1
  injection hy1 with hy1
  rw [← h1, ← h2, ← h3] at hy1
  have hdet : determinant u1 u2 u3 = 0 := by unfold determinant; rw [z1, z2, z3]; ring
  have hg : Inside false (gainsOf s y 0) := by
    rw [← hy1]
    simp only [Inside, gainsOf, inverse, hdet, z1, z2, z3]
    simp only [ne_eq, not_true_eq_false, if_false]
    refine ⟨?_, ?_, .inl ?_⟩
    · nlinarith [mul_pos hz c23]
    · nlinarith [mul_pos hz c31]
    · nlinarith [mul_pos hz c12]
  obtain ⟨is, his⟩ : ∃ is, v.inv = y :: is := by
    cases hvi : v.inv with
    | nil => rw [hvi] at hy2; cases hy2
    | cons a b => rw [hvi] at hy2; simp at hy2; exact ⟨b, by rw [hy2]⟩
  have hse : search v.is2D (relative v src planeWave) v.inv 0 none = some (gainsOf s y 0) := by
    rw [his, v4, h2d, hrel]
    simp only [search]
    exact if_pos hg
  have hpl := plain_of_search hse (t := t) (by rw [v3, ht]; rfl) (by rw [v1]; exact b1)
    (by rw [v1]; exact b2) (by rw [v1]; intro _; exact b3)
  rw [v4, h2d] at hpl
  simp only [Bool.false_eq_true, if_false] at hpl
  have hzero : ∀ x, x ≠ t.1 → x ≠ t.2.1 → x ≠ t.2.2 → Function.update (Function.update (Function.update
      (fun _ => (0 : ℝ)) t.1 (gainsOf s y 0).g1) t.2.1 (gainsOf s y 0).g2) t.2.2 (gainsOf s y 0).g3 x = 0 := by
    intro x x1 x2 x3
    rw [Function.update_of_ne x3, Function.update_of_ne x2, Function.update_of_ne x1]
  refine ⟨_, hpl, hzero, ?_⟩
  rintro ⟨-, -, hsum⟩
  rw [Finset.sum_eq_zero] at hsum
  · linarith
  · intro x _
    by_cases x1 : x = t.1
    · rw [x1, ← h1, z1, mul_zero]
    · by_cases x2 : x = t.2.1
      · rw [x2, ← h2, z2, mul_zero]
      · by_cases x3 : x = t.2.2
        · rw [x3, ← h3, z3, mul_zero]
        · rw [hzero x x1 x2 x3, zero_mul]

/-- Finding: a two-dimensional array at height 1 with the listener at height 1 is silent for every
source: the auxiliary third direction lies in the plane of the loudspeakers. -/
theorem height_one_is_silent {v0 v : Vbap} {p : Vec ℝ} (hv : v0.setListener eps p = .ok v) (h2d : v0.is2D = true)
    (hp : p.z = 1) (hz : ∀ l ∈ v0.positions, l.z = 1) (hne : v0.triplets ≠ [])
    (hr : v0.regular = v0.positions.length) (src : Vec ℝ) (planeWave : Bool) :
    gainsUnNormalised v src planeWave = .ok (List.replicate v0.positions.length 0) := by
  obtain ⟨v1, v2, v3, v4, v5, v6, v7, v8⟩ := setListener_spec hv
  obtain ⟨t, ts, hts⟩ := List.exists_cons_of_ne_nil hne
  obtain ⟨y, hy1, hy2⟩ := v8 0 t (by rw [hts]; rfl)
  have hnz : ∀ a : Vec ℝ, a.z = 0 → (normalise eps a).z = 0 := by
    intro a ha
    unfold normalise
    dsimp only
    split_ifs
    · simp [ha]
    · exact ha
  have hcz : ∀ i c, corner eps { v0 with listener := p } i = some c → c.z = 0 ∧ i < v0.positions.length := by
    intro i c hc
    unfold corner at hc
    dsimp only at hc
    cases hq : v0.positions[i]? with
    | none => rw [hq] at hc; cases hc
    | some l =>
      rw [hq] at hc
      injection hc with hc
      subst hc
      refine ⟨hnz _ ?_, (List.getElem?_eq_some_iff.mp hq).1⟩
      simp [Vec.sub, hz l (List.mem_of_getElem? hq), hp]
  have c4 : thirdCorner eps { v0 with listener := p } t.2.2 =
      some (normalise eps ((⟨0, 0, 1⟩ : Vec ℝ).sub p)) := if_pos h2d
  unfold invOf at hy1
  rw [c4] at hy1
  cases e1 : corner eps { v0 with listener := p } t.1 with
  | none => rw [e1] at hy1; cases hy1
  | some l1 =>
    cases e2 : corner eps { v0 with listener := p } t.2.1 with
    | none => rw [e1, e2] at hy1; cases hy1
    | some l2 =>
      rw [e1, e2] at hy1
      injection hy1 with hy1
      obtain ⟨z1, b1⟩ := hcz _ _ e1
      obtain ⟨z2, b2⟩ := hcz _ _ e2
      have z3 := hnz ((⟨0, 0, 1⟩ : Vec ℝ).sub p) (by simp [Vec.sub, hp])
      have hrel : (relative v src planeWave).z = 0 := by
        unfold relative; rw [v4, h2d]; rfl
      have hg : gainsOf (relative v src planeWave) y 0 =
          ⟨0, 0, 0, (gainsOf (relative v src planeWave) y 0).g3⟩ := by
        rw [← hy1]
        simp only [gainsOf, inverse, hrel, z1, z2, z3, Found.mk.injEq, true_and, and_true]
        exact ⟨by ring, by ring⟩
      obtain ⟨is, his⟩ : ∃ is, v.inv = y :: is := by
        cases hvi : v.inv with
        | nil => rw [hvi] at hy2; cases hy2
        | cons a b => rw [hvi] at hy2; simp at hy2; exact ⟨b, by rw [hy2]⟩
      have hs : search v.is2D (relative v src planeWave) v.inv 0 none =
          some (gainsOf (relative v src planeWave) y 0) := by
        rw [his, v4, h2d]
        simp only [search]
        rw [if_pos]
        rw [hg]
        simp
      have hpl := plain_of_search hs (t := t) (by rw [v3, hts]; rfl) (by rw [v1]; exact b1)
        (by rw [v1]; exact b2) (by rw [v4, h2d]; simp)
      rw [v4, h2d, hg] at hpl
      simp only [if_true] at hpl
      rw [no_virtual v (by rw [v2, v1, hr]) src planeWave _ hpl, v1]
      congr 1
      refine List.ext_getElem (by simp) ?_
      intro n hn1 hn2
      simp only [List.getElem_map, List.getElem_range, List.getElem_replicate]
      simp [Function.update_apply]

/-- Finding: a source at the position of the listener has zero gains, not unit power. -/
theorem source_at_listener (heps : 0 < eps) {v0 v : Vbap} {p : Vec ℝ} (hv : v0.setListener eps p = .ok v)
    (g : List ℝ) (hg : gains eps v p false = .ok g) (hr : v0.regular = v0.positions.length) : power g = 0 := by
  obtain ⟨v1, v2, v3, v4, v5, v6, v7, v8⟩ := setListener_spec hv
  have hrel : relative v p false = ⟨0, 0, 0⟩ := by
    unfold relative
    rw [v6]
    simp [Vec.sub]
  have hz : ∀ i j, gainsOf (relative v p false) i j = ⟨j, 0, 0, 0⟩ := by
    intro i j
    rw [hrel]
    simp [gainsOf]
  cases hp : plain v p false with
  | throw e => simp [gains, gainsUnNormalised, hp] at hg
  | ub => simp [gains, gainsUnNormalised, hp] at hg
  | ok q =>
    have hq : ∀ x, q x = 0 := by
      unfold plain at hp
      cases hs : search v.is2D (relative v p false) v.inv 0 none with
      | none => rw [hs] at hp; cases hp
      | some f =>
        rw [hs] at hp
        have hf : f.g1 = 0 ∧ f.g2 = 0 ∧ f.g3 = 0 := by
          cases hi : v.inv with
          | nil => rw [hi] at hs; simp [search] at hs
          | cons i is =>
            rw [hi] at hs
            simp only [search, hz] at hs
            simp at hs
            rw [← hs]
            simp
        dsimp only at hp
        cases ht : v.triplets[f.j]? with
        | none => rw [ht] at hp; cases hp
        | some t =>
          rw [ht] at hp
          dsimp only at hp
          split_ifs at hp with c1 c2
          · injection hp with hp
            intro x
            rw [← hp, hf.1, hf.2.1]
            simp [Function.update_apply]
          · injection hp with hp
            intro x
            rw [← hp, hf.1, hf.2.1, hf.2.2]
            simp [Function.update_apply]
    have hu := no_virtual v (by rw [v2, v1, hr]) p false q hp
    obtain ⟨k, hk, hgk, -⟩ := normalised heps v p false _ hu
    rw [hgk] at hg
    injection hg with hg
    rw [← hg, power_scale, power_range]
    simp [hq]

/-! ### Concrete cases -/

/-- Loudspeakers on the axes: the triplet is proper and the direction (1, 2, 3) is in its cone. -/
example : Proper [⟨1, 0, 0⟩, ⟨0, 2, 0⟩, ⟨0, 0, 3⟩] ⟨0, 0, 0⟩ (0, 1, 2) ∧
    InCone [⟨1, 0, 0⟩, ⟨0, 2, 0⟩, ⟨0, 0, 3⟩] ⟨0, 0, 0⟩ (0, 1, 2) ⟨1, 2, 3⟩ := by
  have n1 : Real.sqrt (1 * 1 : ℝ) = 1 := by norm_num
  have n2 : Real.sqrt (2 * 2 : ℝ) = 2 := Real.sqrt_mul_self (by norm_num)
  have n3 : Real.sqrt (3 * 3 : ℝ) = 3 := Real.sqrt_mul_self (by norm_num)
  constructor
  · simp [Proper, triple, direction, Vec.scale, Vec.sub, Vec.norm, Vec.normSquare, n2, n3]
  · refine ⟨1, 2, 3, by norm_num, by norm_num, by norm_num, ?_⟩
    simp [Combination, direction, Vec.scale, Vec.sub, Vec.norm, Vec.normSquare, n2, n3]

/-- Loudspeakers at 0° and 90° for the two-dimensional theorem, and a source in front. -/
example : Proper2 [⟨1, 0, 0⟩, ⟨0, 1, 0⟩] ⟨0, 0, 0⟩ (0, 1, 0) ∧
    InSector [⟨1, 0, 0⟩, ⟨0, 1, 0⟩] ⟨0, 0, 0⟩ (0, 1, 0) ⟨1, 1, 5⟩ := by
  constructor
  · simp [Proper2, direction, Vec.scale, Vec.sub, Vec.norm, Vec.normSquare]
  · exact ⟨1, 1, by norm_num, by norm_num, by simp [direction, Vec.scale, Vec.sub, Vec.norm, Vec.normSquare],
      by simp [direction, Vec.scale, Vec.sub, Vec.norm, Vec.normSquare]⟩

/-- Three loudspeakers around the listener, as in `flat_triplet_hides`. -/
example : ∃ u1 u2 u3 : Vec ℝ, u1 = direction ⟨0, 0, 0⟩ ⟨1, 0, 0⟩ ∧ u2 = direction ⟨0, 0, 0⟩ ⟨-1, 1, 0⟩ ∧
    u3 = direction ⟨0, 0, 0⟩ ⟨-1, -1, 0⟩ ∧ u1.z = 0 ∧ u2.z = 0 ∧ u3.z = 0 ∧
    0 < u1.x * u2.y - u1.y * u2.x ∧ 0 < u2.x * u3.y - u2.y * u3.x ∧ 0 < u3.x * u1.y - u3.y * u1.x := by
  refine ⟨_, _, _, rfl, rfl, rfl, ?_⟩
  simp [direction, Vec.scale, Vec.sub, Vec.norm, Vec.normSquare]

end Visr.Vbap
