import Verif.Panning.Lemmas
import Verif.Vbap.Props
import Mathlib.Analysis.Real.Pi.Bounds

/-!
# C57: panning gains of a scene
-/

namespace Visr.Panning
open Visr Visr.Rotation

/-! ### Lemmas -/

theorem directOf_eq {cfg : Cfg} {v : Vbap.Vbap} (hp : Proper cfg v) {c : Nat} {src : Source}
    (hr : CanRender cfg v (c, src)) {g : List ℝ} (hg : DirectGains cfg v src g) : directOf cfg v src = g.map some := by
  cases src with
  | labels ls d =>
    obtain ⟨g', e1, e2, e3⟩ := labelGains_ok cfg hp.labels ls (List.replicate cfg.regular 0) hr.2 (by simp)
    rw [← const_eq] at e1
    have : g' = g := by
      refine List.ext_getElem (by rw [e2, hg.1]) ?_
      intro i h1 h2
      rw [e3 i h1, hg.2 i h2]
      have : i < cfg.regular := by omega
      simp [this]
    unfold directOf
    simp only
    rw [e1, this]
  | direction pos pw d =>
    have hg' : Vbap.gainsUnNormalised v pos pw = .ok g := hg
    unfold directOf
    simp only
    rw [hg']
  | everywhere =>
    have hg' : g = List.replicate cfg.regular 1 := hg
    unfold directOf
    simp only
    rw [const_eq, hg']

theorem hfOf_eq {cfg : Cfg} {v : Vbap.Vbap} (hp : Proper cfg v) {c : Nat} {src : Source}
    (hr : CanRender cfg v (c, src)) {g : List ℝ} (hg : HfGains cfg v src g) : hfOf cfg v src = g.map some := by
  cases src with
  | labels ls d => exact directOf_eq hp hr hg
  | direction pos pw d =>
    obtain ⟨g0, e, hnn, rfl⟩ := hg
    unfold hfOf
    simp only
    rw [e]
    simp only [List.map_map]
    refine List.map_congr_left fun x hx => ?_
    simp only [Function.comp, sqrtGain]
    rw [if_neg (not_lt.2 (hnn x hx))]
  | everywhere => exact directOf_eq hp hr hg

theorem diffuseOf_eq {cfg : Cfg} {v : Vbap.Vbap} (hp : Proper cfg v) {c : Nat} {src : Source}
    (hr : CanRender cfg v (c, src)) {g : List ℝ} (hg : DiffuseGains cfg v src g) : diffuseOf cfg v src = g.map some := by
  cases src with
  | labels ls d => exact directOf_eq hp hr hg
  | direction pos pw d =>
    have hg' : g = _ := hg
    rw [hg', ← const_eq]
    rfl
  | everywhere => exact directOf_eq hp hr hg

theorem gains_length {v : Vbap.Vbap} {pos : Vec ℝ} {pw : Bool} {g : List ℝ}
    (h : Vbap.gainsUnNormalised v pos pw = .ok g) : g.length = v.regular := by
  unfold Vbap.gainsUnNormalised at h
  cases hp : Vbap.plain v pos pw with
  | ok f =>
    rw [hp] at h
    obtain rfl := Outcome.ok.inj h
    simp
  | throw e => rw [hp] at h; cases h
  | ub => rw [hp] at h; cases h

theorem DirectGains.length {cfg : Cfg} {v : Vbap.Vbap} (hp : Proper cfg v) {src : Source} {g : List ℝ}
    (h : DirectGains cfg v src g) : g.length = cfg.regular := by
  cases src with
  | labels ls d => exact h.1
  | direction pos pw d => rw [gains_length h, hp.regular]
  | everywhere =>
    have h' : g = _ := h
    simp [h']

theorem HfGains.length {cfg : Cfg} {v : Vbap.Vbap} (hp : Proper cfg v) {src : Source} {g : List ℝ}
    (h : HfGains cfg v src g) : g.length = cfg.regular := by
  cases src with
  | labels ls d => exact h.1
  | direction pos pw d =>
    obtain ⟨g0, e, -, rfl⟩ := h
    rw [List.length_map, gains_length e, hp.regular]
  | everywhere =>
    have h' : g = _ := h
    simp [h']

theorem DiffuseGains.length {cfg : Cfg} {v : Vbap.Vbap} (hp : Proper cfg v) {src : Source} {g : List ℝ}
    (h : DiffuseGains cfg v src g) : g.length = cfg.regular := by
  cases src with
  | labels ls d => exact h.1
  | direction pos pw d =>
    have h' : g = _ := h
    simp [h']
  | everywhere =>
    have h' : g = _ := h
    simp [h']

theorem process_new {cfg : Cfg} {s : State} {v : Vbap.Vbap} (hnew : s.sceneChanged = true)
    (hv : currentPanner cfg s = .ok v) {g : Gains} {r : Outcome Unit}
    (hf : forEach (objectStep cfg v) s.scene Gains.zero = (g, r)) :
    step cfg s .process = (⟨v, s.scene, !(decide (r = .ok ())), none, g⟩, r) := by
  unfold currentPanner at hv
  unfold step
  cases hl : s.listener with
  | none =>
    rw [hl] at hv
    obtain rfl := Outcome.ok.inj hv
    simp only
    rw [if_pos hnew, hf]
    cases r <;> simp [hnew]
  | some p =>
    rw [hl] at hv
    simp only at hv ⊢
    rw [hv]
    simp only
    rw [if_pos hnew, hf]
    cases r <;> simp [hnew]

/-- A written column. -/
theorem scaled_of_writes {eps : ℝ} (heps : 0 < eps) (mode : Norm) (t : ℝ) (g : List ℝ)
    (pre post : List (Nat × List (Option ℝ))) (c : Nat) (m : Mat) (h : ∀ w ∈ post, w.1 ≠ c) :
    Scaled eps mode t g ((pre ++ (c, normalise eps mode t (g.map some)) :: post).foldl (put g.length) m) c := by
  obtain ⟨k, hk, e1, e2⟩ := normalise_scaled heps mode t g
  refine ⟨k, hk, ?_, e2⟩
  intro r hr
  rw [put_last _ _ _ _ _ h r hr, e1]
  simp [hr]

/-! ### Properties -/

/-- **C57.** Take a scene that can be rendered for the current listener position, and call `process()`. The call returns
and the scene is taken. Every channel whose last source has a direction or labels gets the loudspeaker gains of this
source in each of the direct outputs, scaled so that the total gain is one minus the diffuseness. The diffuse output gets
the diffuse gains, scaled to the diffuseness. Channels without source are silent.

Partial: at high frequencies the panning gains must not be negative (`negative_gain_is_nan`), the listener position is
used only if there is a new scene (`listener_waits`), and scenes that cannot be rendered are a problem
(`unknown_label`, `channel_out_of_range`, `no_gains_blocks`); plane waves are at other directions than their azimuth in
degrees (`plane_wave_in_degrees`). -/
theorem scene_applied_partial (cfg : Cfg) (s : State) (v : Vbap.Vbap) (hnew : s.sceneChanged = true)
    (hv : currentPanner cfg s = .ok v) (hp : Proper cfg v) (hr : Renderable cfg v s.scene) :
    let s' := (step cfg s .process).1
    (step cfg s .process).2 = .ok () ∧ s'.sceneChanged = false ∧ s'.listener = none ∧ s'.vbap = v ∧
    (∀ c, (∀ p ∈ sceneSources s.scene, p.1 ≠ c) →
      ∀ r, s'.gains.lf r c = some 0 ∧ s'.gains.hf r c = some 0 ∧ s'.gains.diffuse r c = some 0) ∧
    (∀ c, (∀ p ∈ sceneSources s.scene, p.1 = c → p.2 = .everywhere) →
      ∀ r, s'.gains.lf r c = some 0 ∧ s'.gains.hf r c = some 0) ∧
    (∀ pre c src post, (sceneSources s.scene).filter (fun p => p.2.direct) = pre ++ (c, src) :: post →
      (∀ q ∈ post, q.1 ≠ c) → ∀ g,
        (cfg.lf = true → DirectGains cfg v src g →
          Scaled cfg.eps cfg.lfNorm (1 - src.diffuseness) g s'.gains.lf c) ∧
        (cfg.hf = true → HfGains cfg v src g →
          Scaled cfg.eps cfg.hfNorm (1 - src.diffuseness) g s'.gains.hf c)) ∧
    (∀ pre c src post, sceneSources s.scene = pre ++ (c, src) :: post →
      (∀ q ∈ post, q.1 ≠ c) → ∀ g, cfg.diffuse = true → DiffuseGains cfg v src g →
        Scaled cfg.eps cfg.diffuseNorm src.diffuseness g s'.gains.diffuse c) := by
  intro s'
  have hstep : step cfg s .process = (⟨v, s.scene, false, none, applied cfg v (sceneSources s.scene) Gains.zero⟩,
      .ok ()) := by
    rw [process_new hnew hv (scene_ok hp s.scene hr Gains.zero)]
    simp
  have hg : s'.gains = applied cfg v (sceneSources s.scene) Gains.zero := by
    show (step cfg s .process).1.gains = _
    rw [hstep]
  have hcr : ∀ p ∈ sceneSources s.scene, CanRender cfg v p := hr.2
  have hd0 : ∀ c, (∀ p ∈ sceneSources s.scene, p.1 = c → p.2 = .everywhere) →
      ∀ r, s'.gains.lf r c = some 0 ∧ s'.gains.hf r c = some 0 := by
    intro c hc r
    have key : ∀ f : Nat × Source → List (Option ℝ), ∀ w ∈
        ((sceneSources s.scene).filter fun p => p.2.direct).map fun p => (p.1, f p), w.1 ≠ c := by
      intro f w hw e
      obtain ⟨p, hp1, rfl⟩ := List.mem_map.1 hw
      obtain ⟨hp2, hp3⟩ := List.mem_filter.1 hp1
      rw [hc p hp2 e] at hp3
      cases hp3
    rw [hg]
    constructor
    · show (lfWrites cfg v (sceneSources s.scene)).foldl (put cfg.regular) Gains.zero.lf r c = some 0
      rw [put_other]
      · rfl
      · intro w hw
        unfold lfWrites at hw
        split at hw
        · exact key _ w hw
        · simp at hw
    · show (hfWrites cfg v (sceneSources s.scene)).foldl (put cfg.regular) Gains.zero.hf r c = some 0
      rw [put_other]
      · rfl
      · intro w hw
        unfold hfWrites at hw
        split at hw
        · exact key _ w hw
        · simp at hw
  refine ⟨by rw [hstep], ?_, ?_, ?_, ?_, hd0, ?_, ?_⟩
  · show (step cfg s .process).1.sceneChanged = _
    rw [hstep]
  · show (step cfg s .process).1.listener = _
    rw [hstep]
  · show (step cfg s .process).1.vbap = _
    rw [hstep]
  · intro c hc r
    obtain ⟨h1, h2⟩ := hd0 c (fun p hp e => absurd e (hc p hp)) r
    refine ⟨h1, h2, ?_⟩
    rw [hg]
    show (diffuseWrites cfg v (sceneSources s.scene)).foldl (put cfg.regular) Gains.zero.diffuse r c = some 0
    rw [put_other]
    · rfl
    · intro w hw
      unfold diffuseWrites at hw
      split at hw
      · obtain ⟨p, hp1, rfl⟩ := List.mem_map.1 hw
        exact hc p hp1
      · simp at hw
  · intro pre c src post hsplit hpost g
    have hmem : (c, src) ∈ sceneSources s.scene := by
      have : (c, src) ∈ (sceneSources s.scene).filter fun p => p.2.direct := by rw [hsplit]; simp
      exact (List.mem_filter.1 this).1
    have hpost' : ∀ f : Nat × Source → List (Option ℝ), ∀ w ∈ post.map fun p => (p.1, f p), w.1 ≠ c := by
      intro f w hw
      obtain ⟨p, hp1, rfl⟩ := List.mem_map.1 hw
      exact hpost p hp1
    constructor
    · intro hlf hdg
      rw [hg]
      show Scaled _ _ _ g ((lfWrites cfg v (sceneSources s.scene)).foldl (put cfg.regular) _) c
      unfold lfWrites
      rw [if_pos hlf, hsplit, List.map_append, List.map_cons, directOf_eq hp (hcr _ hmem) hdg, ← hdg.length hp]
      exact scaled_of_writes hp.eps_pos _ _ g _ _ c _ (hpost' _)
    · intro hhf hdg
      rw [hg]
      show Scaled _ _ _ g ((hfWrites cfg v (sceneSources s.scene)).foldl (put cfg.regular) _) c
      unfold hfWrites
      rw [if_pos hhf, hsplit, List.map_append, List.map_cons, hfOf_eq hp (hcr _ hmem) hdg, ← hdg.length hp]
      exact scaled_of_writes hp.eps_pos _ _ g _ _ c _ (hpost' _)
  · intro pre c src post hsplit hpost g hdf hdg
    have hmem : (c, src) ∈ sceneSources s.scene := by rw [hsplit]; simp
    rw [hg]
    show Scaled _ _ _ g ((diffuseWrites cfg v (sceneSources s.scene)).foldl (put cfg.regular) _) c
    unfold diffuseWrites
    rw [if_pos hdf, hsplit, List.map_append, List.map_cons, diffuseOf_eq hp (hcr _ hmem) hdg, ← hdg.length hp]
    refine scaled_of_writes hp.eps_pos _ _ g _ _ c _ ?_
    intro w hw
    obtain ⟨p, hp1, rfl⟩ := List.mem_map.1 hw
    exact hpost p hp1

/-- C57, point sources in the cone of a triplet of an array without virtual loudspeakers: the loudspeaker directions
weighted with the gains written by `process()` point at the source, none of the gains is negative. -/
theorem point_source_direction (cfg : Cfg) (s : State) (v v0 : Vbap.Vbap) (hnew : s.sceneChanged = true)
    (hv : currentPanner cfg s = .ok v) (hp : Proper cfg v) (hr : Renderable cfg v s.scene) (hlf : cfg.lf = true)
    (p : Vec ℝ) (hset : v0.setListener cfg.eps p = .ok v) (h2d : v0.is2D = false)
    (hreg : v0.regular = v0.positions.length)
    (hd : ∀ l ∈ v0.positions, cfg.eps ≤ (l.sub p).norm) (hprop : ∀ t ∈ v0.triplets, Vbap.Proper v0.positions p t)
    (pre post : List (Nat × Source)) (c : Nat) (pos : Vec ℝ) (d : ℝ) (hd1 : d < 1)
    (hsplit : (sceneSources s.scene).filter (fun q => q.2.direct) = pre ++ (c, .direction pos false d) :: post)
    (hpost : ∀ q ∈ post, q.1 ≠ c) (hin : ∃ t ∈ v0.triplets, Vbap.InCone v0.positions p t (pos.sub p)) :
    ∃ (g : ℕ → ℝ) (k : ℝ), 0 < k ∧ (∀ r < cfg.regular, (step cfg s .process).1.gains.lf r c = some (g r)) ∧
      (∀ r, 0 ≤ g r) ∧ Vbap.SumsTo v0.positions p g ((pos.sub p).scale k) := by
  obtain ⟨g, hg, hnn, hsum, -⟩ := Vbap.inside_exact hset h2d hd hprop pos false (pos.sub p) rfl hin
  obtain ⟨v1, v2, -, -, -, -, -, -⟩ := Vbap.setListener_spec hset
  have hu := Vbap.no_virtual v (by rw [v2, v1, hreg]) pos false g hg
  obtain ⟨-, -, -, -, -, -, h, -⟩ := scene_applied_partial cfg s v hnew hv hp hr
  obtain ⟨k, hk, hcol, -⟩ := (h pre c _ post hsplit hpost _).1 hlf hu
  have hlen : (List.range v.positions.length).length = cfg.regular := by
    rw [← hp.regular, List.length_range, v2, v1, hreg]
  have hk' : 0 < (1 - d) * k := mul_pos (by linarith) hk
  refine ⟨fun r => (1 - d) * k * g r, (1 - d) * k, hk', ?_, ?_, ?_⟩
  · intro r hr'
    rw [hcol r (by simpa [hlen] using by simpa [← hlen] using hr')]
    simp [Source.diffuseness, mul_assoc]
  · intro r
    exact mul_nonneg hk'.le (hnn r)
  · obtain ⟨e1, e2, e3⟩ := hsum
    unfold Vbap.SumsTo
    simp only [mul_assoc _ (g _), ← Finset.mul_sum, e1, e2, e3]
    exact ⟨rfl, rfl, rfl⟩

/-- C57, a negative panning gain: all high-frequency gains of the source are NaN. -/
theorem negative_gain_is_nan (cfg : Cfg) (s : State) (v : Vbap.Vbap) (hnew : s.sceneChanged = true)
    (hv : currentPanner cfg s = .ok v) (hp : Proper cfg v) (hr : Renderable cfg v s.scene) (hhf : cfg.hf = true)
    (pre post : List (Nat × Source)) (c : Nat) (pos : Vec ℝ) (pw : Bool) (d : ℝ)
    (hsplit : (sceneSources s.scene).filter (fun q => q.2.direct) = pre ++ (c, .direction pos pw d) :: post)
    (hpost : ∀ q ∈ post, q.1 ≠ c) (g : List ℝ) (hg : Vbap.gainsUnNormalised v pos pw = .ok g)
    (hneg : ∃ x ∈ g, x < 0) :
    ∀ r < cfg.regular, (step cfg s .process).1.gains.hf r c = none := by
  intro r hr'
  have hstep : (step cfg s .process).1.gains = applied cfg v (sceneSources s.scene) Gains.zero := by
    rw [process_new hnew hv (scene_ok hp s.scene hr Gains.zero)]
  have hh : hfOf cfg v (.direction pos pw d) = g.map sqrtGain := by
    unfold hfOf
    simp only
    rw [hg]
  have hnone : none ∈ g.map sqrtGain := by
    obtain ⟨x, hx, hx0⟩ := hneg
    exact List.mem_map.2 ⟨x, hx, by simp [sqrtGain, hx0]⟩
  rw [hstep]
  show (hfWrites cfg v (sceneSources s.scene)).foldl (put cfg.regular) _ r c = none
  unfold hfWrites
  rw [if_pos hhf, hsplit, List.map_append, List.map_cons, hh, normalise_nan _ _ _ _ hnone, put_last _ _ _ _ _ _ r hr']
  · have : r < g.length := by rw [gains_length hg, hp.regular]; exact hr'
    simp [this]
  · intro w hw
    obtain ⟨p, hp1, rfl⟩ := List.mem_map.1 hw
    exact hpost p hp1

/-- C57, the gains do not follow the listener: without a new scene they stay as they are, also if a new listener position
is received. -/
theorem listener_waits (cfg : Cfg) (s : State) (v : Vbap.Vbap) (hold : s.sceneChanged = false) (p : Vec ℝ)
    (hv : s.vbap.setListener cfg.eps p = .ok v) :
    let s1 := (step cfg s (.listener p)).1
    (step cfg s1 .process).2 = .ok () ∧ (step cfg s1 .process).1.vbap = v ∧
      (step cfg s1 .process).1.gains = s.gains := by
  intro s1
  have h : step cfg s1 .process = ({ s1 with vbap := v, listener := none }, .ok ()) := by
    have e : s1 = { s with listener := some p } := rfl
    unfold step
    simp only
    rw [e]
    simp only
    rw [hv]
    simp only
    rw [if_neg (by rw [hold]; decide)]
  rw [h]
  exact ⟨rfl, rfl, rfl⟩

/-- C57, quiet blocks: nothing changes. -/
theorem quiet (cfg : Cfg) (s : State) (hold : s.sceneChanged = false) (hl : s.listener = none) :
    step cfg s .process = (s, .ok ()) := by
  unfold step
  simp only
  rw [hl]
  simp only
  rw [if_neg (by rw [hold]; decide)]
  cases s
  simp_all

theorem forEach_stop {α σ : Type} (f : σ → α → σ × Outcome Unit) (F : σ → α → σ) (e : Outcome Unit) (he : e ≠ .ok ()) :
    ∀ (pre : List α) (a : α) (post : List α) (s : σ), (∀ b ∈ pre, ∀ s, f s b = (F s b, .ok ())) →
      (∀ s, (f s a).2 = e) → (forEach f (pre ++ a :: post) s).2 = e
  | [], a, post, s, _, ha => by
    have := ha s
    show (forEach f (a :: post) s).2 = e
    unfold forEach
    cases hf : f s a with
    | mk s' r =>
      rw [hf] at this
      simp only at this
      subst this
      cases r with
      | ok u => cases u; exact absurd rfl he
      | throw x => rfl
      | ub => rfl
  | b :: pre, a, post, s, h, ha => by
    rw [List.cons_append]
    unfold forEach
    rw [h b (by simp) s]
    exact forEach_stop f F e he pre a post _ (fun b' h' => h b' (by simp [h'])) ha

/-- An object which cannot be rendered, after objects which can. -/
theorem step_stop (cfg : Cfg) (s : State) (v : Vbap.Vbap) (hnew : s.sceneChanged = true)
    (hv : currentPanner cfg s = .ok v) (hp : Proper cfg v) (pre post : List Obj) (o : Obj)
    (hs : s.scene = pre ++ o :: post) (hr : Renderable cfg v pre) (e : Outcome Unit) (he : e ≠ .ok ())
    (ho : ∀ g, (objectStep cfg v g o).2 = e) :
    (step cfg s .process).2 = e ∧ (step cfg s .process).1.sceneChanged = true ∧
      (step cfg s .process).1.scene = s.scene ∧ (step cfg s .process).1.vbap = v ∧
      (step cfg s .process).1.listener = none := by
  have h := forEach_stop (objectStep cfg v) (fun g o => applied cfg v (sources o) g) e he pre o post Gains.zero
    (fun b hb g => object_ok hp b (fun d outs h => hr.1 b hb d outs h)
      (fun p h => hr.2 p (List.mem_flatMap.2 ⟨b, hb, h⟩)) g) ho
  rw [← hs] at h
  cases hf : forEach (objectStep cfg v) s.scene Gains.zero with
  | mk g r =>
    rw [hf] at h
    simp only at h
    rw [process_new hnew hv hf]
    subst h
    exact ⟨rfl, by simp [he], rfl, rfl, rfl⟩

/-- C57, a direction for which the panner finds no gains: the call of `process()` fails with an exception, and so does
every further call until there is a new scene or listener position. -/
theorem no_gains_blocks (cfg : Cfg) (s : State) (v : Vbap.Vbap) (hnew : s.sceneChanged = true)
    (hv : currentPanner cfg s = .ok v) (hp : Proper cfg v) (pre post : List Obj) (c : Nat) (pos : Vec ℝ) (d : Option ℝ)
    (hs : s.scene = pre ++ ⟨[c], .point pos d⟩ :: post) (hr : Renderable cfg v pre) (e : Exn)
    (he : Vbap.gainsUnNormalised v pos false = .throw e) (n : Nat) :
    (step cfg (final (step cfg) s (List.replicate n .process)) .process).2 = .throw e := by
  have key : ∀ s : State, s.sceneChanged = true → currentPanner cfg s = .ok v →
      s.scene = pre ++ ⟨[c], .point pos d⟩ :: post →
      (step cfg s .process).2 = .throw e ∧ (step cfg s .process).1.sceneChanged = true ∧
      currentPanner cfg (step cfg s .process).1 = .ok v ∧
      (step cfg s .process).1.scene = pre ++ ⟨[c], .point pos d⟩ :: post := by
    intro s hnew hv hs
    obtain ⟨h1, h2, h3, h4, h5⟩ := step_stop cfg s v hnew hv hp pre post _ hs hr (.throw e) (by simp) (by
      intro g
      show (attempt g (directional cfg v g c pos false (d.getD 0))).2 = _
      unfold directional
      rw [he]
      rfl)
    refine ⟨h1, h2, ?_, by rw [h3, hs]⟩
    unfold currentPanner
    rw [h5, h4]
  have inv : ∀ n, ∀ s : State, s.sceneChanged = true → currentPanner cfg s = .ok v →
      s.scene = pre ++ ⟨[c], .point pos d⟩ :: post →
      (step cfg (final (step cfg) s (List.replicate n .process)) .process).2 = .throw e := by
    intro n
    induction n with
    | zero => intro s a b c'; exact (key s a b c').1
    | succ n ih =>
      intro s a b c'
      obtain ⟨-, h2, h3, h4⟩ := key s a b c'
      rw [List.replicate_succ, final_cons]
      exact ih _ h2 h3 h4
  exact inv n s hnew hv hs

/-- C57, a label that names no loudspeaker: undefined behaviour. -/
theorem unknown_label (cfg : Cfg) (s : State) (v : Vbap.Vbap) (hnew : s.sceneChanged = true)
    (hv : currentPanner cfg s = .ok v) (hp : Proper cfg v) (pre post : List Obj) (c : Nat) (d : ℝ) (l : String)
    (hs : s.scene = pre ++ ⟨[c], .channel d [[l]]⟩ :: post) (hr : Renderable cfg v pre) (hl : findLabel cfg l = none) :
    (step cfg s .process).2 = .ub := by
  refine (step_stop cfg s v hnew hv hp pre post _ hs hr .ub (by simp) ?_).1
  intro g
  show (forEach (channelStep cfg d [c] [[l]]) (List.range 1) g).2 = .ub
  have : channelStep cfg d [c] [[l]] g 0 = (g, .ub) := by
    unfold channelStep
    simp only [List.getElem?_cons_zero, Outcome.ok_bind]
    unfold labelGains
    rw [hl]
    rfl
  show (forEach (channelStep cfg d [c] [[l]]) [0] g).2 = .ub
  unfold forEach
  rw [this]

/-- C57, a channel number that exceeds the number of object channels (rounded up to the alignment): undefined
behaviour. -/
theorem channel_out_of_range (cfg : Cfg) (s : State) (v : Vbap.Vbap) (hnew : s.sceneChanged = true)
    (hv : currentPanner cfg s = .ok v) (hp : Proper cfg v) (pre post : List Obj) (c : Nat) (pos : Vec ℝ) (d : Option ℝ)
    (hs : s.scene = pre ++ ⟨[c], .point pos d⟩ :: post) (hr : Renderable cfg v pre) (g : List ℝ)
    (hg : Vbap.gainsUnNormalised v pos false = .ok g) (hc : cfg.stride ≤ c) (hreg : 0 < cfg.regular)
    (hout : cfg.lf = true ∨ cfg.hf = true ∨ cfg.diffuse = true) :
    (step cfg s .process).2 = .ub := by
  refine (step_stop cfg s v hnew hv hp pre post _ hs hr .ub (by simp) ?_).1
  intro gg
  have hcol : ∀ m col, setColumn cfg m c col = .ub := by
    intro m col
    unfold setColumn
    rw [if_neg]
    omega
  show (attempt gg (directional cfg v gg c pos false (d.getD 0))).2 = _
  unfold directional
  rw [hg]
  simp only [Outcome.ok_bind]
  unfold setColumns
  simp only [hcol]
  rcases hout with h | h | h
  · rw [h]; rfl
  · rw [h]; cases cfg.lf <;> rfl
  · rw [h]; cases cfg.lf <;> cases cfg.hf <;> rfl

/-- C57, plane waves: the azimuth is taken as an angle in radian, whereas scenes give it in degrees
(`cap_gain_calculator.cpp:169`). A plane wave from the left (90 degrees) is rendered at a direction behind the listener's
left ear, with a negative x coordinate. -/
theorem plane_wave_in_degrees (c : Nat) (dist : ℝ) (hd : 0 < dist) :
    ∃ pos : Vec ℝ, sources ⟨[c], .plane 90 0 dist⟩ = [(c, .direction pos true 0)] ∧ pos.x < 0 ∧
      (spherical2cartesian (90 * (Real.pi / 180)) 0 dist).x = 0 := by
  refine ⟨spherical2cartesian 90 0 dist, rfl, ?_, ?_⟩
  · have h1 := Real.pi_gt_d2
    have h2 := Real.pi_lt_d2
    have : Real.cos 90 < 0 := by
      have e : Real.cos 90 = Real.cos (90 - (14 : ℕ) * (2 * Real.pi)) := (Real.cos_sub_nat_mul_two_pi 90 14).symm
      rw [e]
      refine Real.cos_neg_of_pi_div_two_lt_of_lt ?_ ?_ <;> push_cast <;> linarith
    simp only [spherical2cartesian, Real.cos_zero, mul_one]
    exact mul_neg_of_neg_of_pos this hd
  · have e : (90 : ℝ) * (Real.pi / 180) = Real.pi / 2 := by ring
    simp [spherical2cartesian, e, Real.cos_pi_div_two]

/-- C57, default normalisations as documented (`panning_calculator.hpp:107-110`): without high-frequency output the
gains have unit energy, with it the low-frequency gains have unit amplitude. -/
theorem default_normalisation (hf : Bool) :
    resolveLf hf none = (if hf then .amplitude else .energy) ∧ resolveOther none = .energy ∧
      ∀ n, resolveLf hf (some n) = n ∧ resolveOther (some n) = n :=
  ⟨rfl, rfl, fun _ => ⟨rfl, rfl⟩⟩

/-! ### Diffusion gains -/

/-- C57, `DiffusionGainCalculator`: the gain of a channel is one for diffuse sources and the diffuseness of point sources
with diffuseness, and zero for channels with other or no objects. The last single-channel object of a channel counts.

Partial: sources with extent are point sources with diffuseness, but their gain is zero (see the definition of
`diffusionLevel` and `extent_loses_diffuse_part`). -/
theorem diffusion_gain_partial (n : Nat) (objects : List DObj) :
    ∃ g, diffusion n objects 1 n = .ok g ∧
      (∀ c, (∀ o ∈ objects, o.channels ≠ [c]) → g c = 0) ∧
      (∀ pre o post c, objects = pre ++ o :: post → o.channels = [c] → c < n →
        (∀ q ∈ post, q.channels ≠ [c]) →
        g c = if o.typ = .diffuse then 1 else if o.typ = .pointDiffuse then o.diffuseness else 0) := by
  have other : ∀ (l : List DObj) (g : Nat → ℝ) (c : Nat), (∀ o ∈ l, o.channels ≠ [c]) → diffusionLoop n l g c = g c := by
    intro l
    induction l with
    | nil => intro g c _; rfl
    | cons o l ih =>
      intro g c h
      have h1 := h o (by simp)
      have h2 : ∀ o ∈ l, o.channels ≠ [c] := fun o' h' => h o' (by simp [h'])
      match hc : o.channels with
      | [c'] =>
        unfold diffusionLoop
        rw [hc]
        simp only
        split
        · exact ih g c h2
        · rw [ih _ c h2, Function.update_of_ne]
          rintro rfl
          exact h1 hc
      | [] => unfold diffusionLoop; rw [hc]; exact ih g c h2
      | a :: b :: t => unfold diffusionLoop; rw [hc]; exact ih g c h2
  have app : ∀ (a b : List DObj) (g : Nat → ℝ), diffusionLoop n (a ++ b) g = diffusionLoop n b (diffusionLoop n a g) := by
    intro a
    induction a with
    | nil => intro b g; rfl
    | cons o a ih =>
      intro b g
      rw [List.cons_append]
      conv_lhs => unfold diffusionLoop
      conv_rhs => rw [diffusionLoop]
      split
      · split
        · exact ih b g
        · exact ih b _
      · exact ih b g
  refine ⟨diffusionLoop n objects fun _ => 0, by simp [diffusion], ?_, ?_⟩
  · intro c h
    exact other objects _ c h
  · intro pre o post c e hc hcn hpost
    rw [e, app]
    conv_lhs => rw [diffusionLoop]
    rw [hc]
    simp only
    rw [if_neg (by omega), other post _ c hpost, Function.update_self]
    unfold diffusionLevel
    cases o.typ <;> simp

/-- C57, a source with extent has diffuseness (`PointSourceExtent` is derived from `PointSourceWithDiffuseness`), and
`PanningCalculator` attenuates its direct sound accordingly, but `DiffusionGainCalculator` gives it no diffuse part. -/
theorem extent_loses_diffuse_part (n c : Nat) (hc : c < n) (d : ℝ) (pos : Vec ℝ) :
    sources ⟨[c], .point pos (some d)⟩ = [(c, .direction pos false d)] ∧
      ∃ g, diffusion n [⟨[c], .pointExtent, d⟩] 1 n = .ok g ∧ g c = 0 := by
  obtain ⟨g, h1, -, h3⟩ := diffusion_gain_partial n [⟨[c], .pointExtent, d⟩]
  exact ⟨rfl, g, h1, by simpa using h3 [] _ [] c rfl rfl hc (by simp)⟩

/-- A gain matrix of another size is refused. -/
theorem diffusion_wrong_size (n : Nat) (objects : List DObj) (rows cols : Nat) (h : rows ≠ 1 ∨ cols ≠ n) :
    diffusion n objects rows cols = .throw .invalidArgument := by
  unfold diffusion
  rw [if_pos h]

/-! ### The hypotheses are satisfiable -/

/-- Three loudspeakers on the coordinate axes. -/
noncomputable def exampleVbap : Vbap.Vbap :=
  ⟨[⟨1, 0, 0⟩, ⟨0, 2, 0⟩, ⟨0, 0, 3⟩], 3, [(0, 1, 2)], false, fun _ _ => 0, ⟨0, 0, 1⟩, []⟩

noncomputable def exampleCfg : Cfg := ⟨1 / 1000, 4, 8, 3, [("left", 0), ("right", 1)], true, true, true, .amplitude, .energy, .energy⟩

/-- A channel object, a diffuse source, and a point source that replaces the first channel. -/
noncomputable def exampleScene : List Obj :=
  [⟨[0, 1], .channel 0 [["left"], ["left", "right"]]⟩, ⟨[2], .diffuse⟩, ⟨[0], .point ⟨1, 2, 3⟩ (some (1 / 4))⟩]

theorem example_proper : ∀ t ∈ exampleVbap.triplets, Vbap.Proper exampleVbap.positions ⟨0, 0, 0⟩ t := by
  have n2 : Real.sqrt (2 * 2 : ℝ) = 2 := Real.sqrt_mul_self (by norm_num)
  have n3 : Real.sqrt (3 * 3 : ℝ) = 3 := Real.sqrt_mul_self (by norm_num)
  intro t ht
  simp only [exampleVbap, List.mem_singleton] at ht
  subst ht
  simp [exampleVbap, Vbap.Proper, Vbap.triple, Vbap.direction, Vec.scale, Vec.sub, Vec.norm, Vec.normSquare, n2, n3]

theorem example_cone : Vbap.InCone exampleVbap.positions ⟨0, 0, 0⟩ (0, 1, 2) ((⟨1, 2, 3⟩ : Vec ℝ).sub ⟨0, 0, 0⟩) := by
  have n2 : Real.sqrt (2 * 2 : ℝ) = 2 := Real.sqrt_mul_self (by norm_num)
  have n3 : Real.sqrt (3 * 3 : ℝ) = 3 := Real.sqrt_mul_self (by norm_num)
  refine ⟨1, 2, 3, by norm_num, by norm_num, by norm_num, ?_⟩
  simp [exampleVbap, Vbap.Combination, Vbap.direction, Vec.scale, Vec.sub, Vec.norm, Vec.normSquare, n2, n3]

theorem example_distance : ∀ l ∈ exampleVbap.positions, exampleCfg.eps ≤ (l.sub ⟨0, 0, 0⟩).norm := by
  have n2 : Real.sqrt (2 * 2 : ℝ) = 2 := Real.sqrt_mul_self (by norm_num)
  have n3 : Real.sqrt (3 * 3 : ℝ) = 3 := Real.sqrt_mul_self (by norm_num)
  intro l hl
  simp only [exampleVbap, List.mem_cons, List.not_mem_nil, or_false] at hl
  rcases hl with rfl | rfl | rfl <;>
    simp [exampleCfg, Vec.sub, Vec.norm, Vec.normSquare, n2, n3] <;> norm_num

/-- `point_source_direction` (and with it `scene_applied_partial`) applies to the example: the scene and the listener
position are new. -/
example (g0 : Gains) : ∃ (g : ℕ → ℝ) (k : ℝ), 0 < k ∧
    (∀ r < 3, (step exampleCfg ⟨exampleVbap, exampleScene, true, some ⟨0, 0, 0⟩, g0⟩ .process).1.gains.lf r 0 =
      some (g r)) ∧ (∀ r, 0 ≤ g r) ∧
    Vbap.SumsTo exampleVbap.positions ⟨0, 0, 0⟩ g (((⟨1, 2, 3⟩ : Vec ℝ).sub ⟨0, 0, 0⟩).scale k) := by
  have hset : ∃ v, exampleVbap.setListener exampleCfg.eps ⟨0, 0, 0⟩ = .ok v := by
    unfold Vbap.Vbap.setListener
    simp only [exampleVbap]
    simp [Vbap.invOf, Vbap.corner, Vbap.thirdCorner]
  obtain ⟨v, hv⟩ := hset
  obtain ⟨v1, v2, -, -, -, -, -, -⟩ := Vbap.setListener_spec hv
  obtain ⟨g, hg, -, -, -⟩ := Vbap.inside_exact hv rfl example_distance example_proper ⟨1, 2, 3⟩ false _ rfl
    ⟨_, by simp [exampleVbap], example_cone⟩
  have hu := Vbap.no_virtual v (by rw [v2, v1]; rfl) ⟨1, 2, 3⟩ false g hg
  refine point_source_direction exampleCfg ⟨exampleVbap, exampleScene, true, some ⟨0, 0, 0⟩, g0⟩ v exampleVbap rfl
    hv ⟨by norm_num [exampleCfg], by simp [exampleCfg],
    ?_, by rw [v2]; rfl⟩ ?_ rfl ⟨0, 0, 0⟩ hv rfl rfl example_distance example_proper
    [(0, .labels ["left"] 0), (1, .labels ["left", "right"] 0)] [] 0 ⟨1, 2, 3⟩ (1 / 4) (by norm_num) ?_ (by simp)
    ⟨_, by simp [exampleVbap], example_cone⟩
  · intro e he
    simp only [exampleCfg, List.mem_cons, List.not_mem_nil, or_false] at he ⊢
    rcases he with rfl | rfl <;> decide
  · constructor
    · intro o ho d outputs hk
      simp only [exampleScene, List.mem_cons, List.not_mem_nil, or_false] at ho
      rcases ho with rfl | rfl | rfl
      · simp only [Kind.channel.injEq] at hk
        rw [← hk.2]; rfl
      · cases hk
      · cases hk
    · intro p hp
      simp only [sceneSources, exampleScene, List.flatMap_cons, sources, List.zip_cons_cons, List.zip_nil_right,
        List.map_cons, List.map_nil, List.flatMap_nil, List.append_nil, List.cons_append, List.nil_append,
        List.mem_cons, List.not_mem_nil, or_false, Option.getD_some] at hp
      rcases hp with rfl | rfl | rfl | rfl
      · exact ⟨by decide, by simp [findLabel, exampleCfg]⟩
      · exact ⟨by decide, by simp [findLabel, exampleCfg]⟩
      · exact ⟨by decide, trivial⟩
      · exact ⟨by decide, _, hu⟩
  · simp [sceneSources, exampleScene, sources, Source.direct]

/-- A source below the plane of two of the loudspeakers has a negative gain, as in `negative_gain_is_nan`; a source with two
negative gains is one for which there are no gains, as in `no_gains_blocks`. -/
example : Vbap.Vbap.setListener (1 / 1000) ⟨[⟨1, 0, 0⟩, ⟨0, 1, 0⟩, ⟨0, 0, 1⟩], 3, [(0, 1, 2)], false, fun _ _ => 0,
      ⟨0, 0, 1⟩, []⟩ ⟨0, 0, 0⟩ = .ok ⟨[⟨1, 0, 0⟩, ⟨0, 1, 0⟩, ⟨0, 0, 1⟩], 3, [(0, 1, 2)], false, fun _ _ => 0,
      ⟨0, 0, 0⟩, [⟨⟨1, 0, 0⟩, ⟨0, 1, 0⟩, ⟨0, 0, 1⟩⟩]⟩ ∧
    Vbap.gainsUnNormalised ⟨[⟨1, 0, 0⟩, ⟨0, 1, 0⟩, ⟨0, 0, 1⟩], 3, [(0, 1, 2)], false, fun _ _ => 0,
      ⟨0, 0, 0⟩, [⟨⟨1, 0, 0⟩, ⟨0, 1, 0⟩, ⟨0, 0, 1⟩⟩]⟩ ⟨2, 1, -1⟩ false = .ok [2, 1, -1] ∧
    Vbap.gainsUnNormalised ⟨[⟨1, 0, 0⟩, ⟨0, 1, 0⟩, ⟨0, 0, 1⟩], 3, [(0, 1, 2)], false, fun _ _ => 0,
      ⟨0, 0, 0⟩, [⟨⟨1, 0, 0⟩, ⟨0, 1, 0⟩, ⟨0, 0, 1⟩⟩]⟩ ⟨2, -1, -1⟩ false = .throw .runtimeError := by
  refine ⟨?_, ?_, ?_⟩
  · unfold Vbap.Vbap.setListener
    norm_num [Vbap.invOf, Vbap.corner, Vbap.thirdCorner, Vbap.normalise, Vec.sub, Vbap.inverse, Vbap.determinant]
  · have hr : List.range 3 = [0, 1, 2] := rfl
    norm_num [Vbap.gainsUnNormalised, Vbap.plain, Vbap.search, Vbap.relative, Vbap.gainsOf, Vec.sub,
      Vbap.Found.negatives, Vbap.reroute, Vbap.rerouteLoop, hr, Function.update]
  · norm_num [Vbap.gainsUnNormalised, Vbap.plain, Vbap.search, Vbap.relative, Vbap.gainsOf, Vec.sub,
      Vbap.Found.negatives]

end Visr.Panning
