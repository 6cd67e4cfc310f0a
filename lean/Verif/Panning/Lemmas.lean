import Verif.Panning.Spec
import Mathlib.Tactic.Positivity
import Mathlib.Tactic.Linarith
import Mathlib.Tactic.Ring
import Mathlib.Tactic.FieldSimp

/-!
# Lemmas for C57
-/

namespace Visr.Panning
open Visr Visr.Rotation

/-! ### Normalisation -/

theorem foldl_abs (l : List ℝ) (a : ℝ) :
    (l.map some).foldl (fun acc v => acc.bind fun a => v.map fun x => a + |x|) (some a)
      = some (a + (l.map fun x => |x|).sum) := by
  induction l generalizing a with
  | nil => simp
  | cons x l ih =>
    simp only [List.map_cons, List.foldl_cons, Option.bind_some, Option.map_some, List.sum_cons]
    rw [ih, add_assoc]

theorem foldl_sq (l : List ℝ) (a : ℝ) :
    (l.map some).foldl (fun acc v => acc.bind fun a => v.map fun x => a + x * x) (some a)
      = some (a + (l.map fun x => x ^ 2).sum) := by
  induction l generalizing a with
  | nil => simp
  | cons x l ih =>
    simp only [List.map_cons, List.foldl_cons, Option.bind_some, Option.map_some, List.sum_cons]
    rw [ih]
    congr 1
    ring

theorem normOf_some (mode : Norm) (l : List ℝ) : normOf mode (l.map some) = some (size mode l) := by
  cases mode with
  | amplitude => simp only [normOf, size]; rw [foldl_abs, zero_add]
  | energy => simp only [normOf, size]; rw [foldl_sq, zero_add]; rfl

theorem foldl_none {β : Type} (f : β → ℝ → β) (l : List (Option ℝ)) :
    l.foldl (fun acc v => acc.bind fun a => v.map fun x => f a x) none = none := by
  induction l with
  | nil => rfl
  | cons x l ih => simpa using ih

theorem foldl_nan {β : Type} (f : β → ℝ → β) (l : List (Option ℝ)) (h : none ∈ l) (a : Option β) :
    l.foldl (fun acc v => acc.bind fun a => v.map fun x => f a x) a = none := by
  induction l generalizing a with
  | nil => simp at h
  | cons x l ih =>
    rw [List.foldl_cons]
    rcases List.mem_cons.1 h with e | h'
    · rw [← e]
      have : (a.bind fun a => (none : Option ℝ).map fun x => f a x) = none := by cases a <;> rfl
      rw [this, foldl_none]
    · exact ih h' _

theorem normOf_nan (mode : Norm) (l : List (Option ℝ)) (h : none ∈ l) : normOf mode l = none := by
  cases mode with
  | amplitude => exact foldl_nan (fun a x => a + |x|) l h _
  | energy => simp only [normOf]; rw [foldl_nan (fun a x => a + x * x) l h]; rfl

theorem normalise_nan (eps : ℝ) (mode : Norm) (t : ℝ) (l : List (Option ℝ)) (h : none ∈ l) :
    normalise eps mode t l = l.map fun _ => none := by
  unfold normalise
  rw [normOf_nan mode l h]

theorem sum_abs_scale (k : ℝ) (l : List ℝ) :
    ((l.map fun x => k * x).map fun x => |x|).sum = |k| * (l.map fun x => |x|).sum := by
  induction l with
  | nil => simp
  | cons x l ih =>
    simp only [List.map_cons, List.sum_cons]
    rw [ih, abs_mul, mul_add]

theorem sum_sq_scale (k : ℝ) (l : List ℝ) :
    ((l.map fun x => k * x).map fun x => x ^ 2).sum = k ^ 2 * (l.map fun x => x ^ 2).sum := by
  induction l with
  | nil => simp
  | cons x l ih =>
    simp only [List.map_cons, List.sum_cons]
    rw [ih]
    ring

theorem size_scale (mode : Norm) (k : ℝ) (l : List ℝ) : size mode (l.map fun x => k * x) = |k| * size mode l := by
  cases mode with
  | amplitude => exact sum_abs_scale k l
  | energy =>
    simp only [size]
    rw [sum_sq_scale, Real.sqrt_mul (sq_nonneg k), Real.sqrt_sq_eq_abs]

/-- The column calculated by `normalise()`. -/
theorem normalise_scaled {eps : ℝ} (heps : 0 < eps) (mode : Norm) (t : ℝ) (g : List ℝ) :
    ∃ k : ℝ, 0 < k ∧ normalise eps mode t (g.map some) = g.map (fun x => some (t * (k * x))) ∧
      (eps ≤ size mode g → size mode (g.map fun x => t * (k * x)) = |t|) := by
  have hm : 0 < max (size mode g) eps := lt_max_of_lt_right heps
  refine ⟨1 / max (size mode g) eps, by positivity, ?_, ?_⟩
  · unfold normalise
    rw [normOf_some]
    simp only [List.map_map]
    refine List.map_congr_left fun x _ => ?_
    simp only [Function.comp, Option.map_some]
    congr 1
    ring
  · intro h
    have e : (g.map fun x => t * (1 / max (size mode g) eps * x))
        = g.map fun x => (t * (1 / max (size mode g) eps)) * x := List.map_congr_left fun x _ => by ring
    rw [e, size_scale, abs_mul, abs_of_pos (by positivity : 0 < 1 / max (size mode g) eps), max_eq_left h]
    have : 0 < size mode g := lt_of_lt_of_le heps h
    field_simp

/-! ### Writing columns -/

/-- Matrix after writing columns of `n` rows. -/
def put (n : Nat) (m : Mat) (w : Nat × List (Option ℝ)) : Mat :=
  fun r k => if k = w.1 ∧ r < n then w.2.getD r none else m r k

theorem put_other {n : Nat} (ws : List (Nat × List (Option ℝ))) (m : Mat) (c : Nat) (h : ∀ w ∈ ws, w.1 ≠ c) (r : Nat) :
    ws.foldl (put n) m r c = m r c := by
  induction ws generalizing m with
  | nil => rfl
  | cons w ws ih =>
    rw [List.foldl_cons, ih _ fun w' h' => h w' (by simp [h'])]
    unfold put
    rw [if_neg]
    rintro ⟨e, -⟩
    exact h w (by simp) e.symm

theorem put_last {n : Nat} (pre post : List (Nat × List (Option ℝ))) (c : Nat) (col : List (Option ℝ)) (m : Mat)
    (h : ∀ w ∈ post, w.1 ≠ c) (r : Nat) (hr : r < n) :
    (pre ++ (c, col) :: post).foldl (put n) m r c = col.getD r none := by
  rw [List.foldl_append, List.foldl_cons, put_other _ _ _ h]
  unfold put
  rw [if_pos ⟨rfl, hr⟩]

/-- Labels of a channel. -/
theorem labelGains_ok (cfg : Cfg) (hl : ∀ e ∈ cfg.lookup, e.2 < cfg.regular) :
    ∀ (ls : List String) (g : List ℝ), (∀ l ∈ ls, (findLabel cfg l).isSome) → g.length = cfg.regular →
      ∃ g' : List ℝ, labelGains cfg ls (g.map some) = .ok (g'.map some) ∧ g'.length = cfg.regular ∧
        ∀ i (hi : i < g'.length), g'[i] = if ∃ l ∈ ls, findLabel cfg l = some i then 1 else g.getD i 0
  | [], g, _, hg => ⟨g, rfl, hg, fun i hi => by simp [hi]⟩
  | l :: ls, g, h, hg => by
    obtain ⟨i, hi⟩ := Option.isSome_iff_exists.1 (h l (by simp))
    have e : (g.map some).set i (some (1 : ℝ)) = (g.set i 1).map some := by rw [List.map_set]
    obtain ⟨g', h1, h2, h3⟩ := labelGains_ok cfg hl ls (g.set i 1) (fun l' h' => h l' (by simp [h'])) (by simpa using hg)
    refine ⟨g', ?_, h2, ?_⟩
    · unfold labelGains
      rw [hi]
      simp only []
      rw [e, h1]
    · intro j hj
      rw [h3 j hj]
      have hjg : j < g.length := by omega
      by_cases e1 : ∃ l' ∈ ls, findLabel cfg l' = some j
      · rw [if_pos e1, if_pos]
        obtain ⟨l', a, b⟩ := e1
        exact ⟨l', by simp [a], b⟩
      · rw [if_neg e1]
        by_cases e2 : i = j
        · rw [if_pos ⟨l, by simp, by rw [hi, e2]⟩, e2]
          simp [hjg]
        · rw [if_neg]
          · simp [hjg, List.getElem_set, e2]
          · rintro ⟨l', a, b⟩
            rcases List.mem_cons.1 a with e3 | e3
            · rw [e3, hi] at b
              exact e2 (Option.some.inj b)
            · exact e1 ⟨l', e3, b⟩

/-! ### Columns of a source -/

/-- Direct gains of a source, for renderable sources. -/
noncomputable def directOf (cfg : Cfg) (v : Vbap.Vbap) : Source → List (Option ℝ)
  | .labels ls _ =>
    match labelGains cfg ls (const cfg 0) with
    | .ok g => g
    | _ => []
  | .direction pos pw _ =>
    match Vbap.gainsUnNormalised v pos pw with
    | .ok g => g.map some
    | _ => []
  | .everywhere => const cfg 1

/-- Input of the normalisation of the HF gains. -/
noncomputable def hfOf (cfg : Cfg) (v : Vbap.Vbap) : Source → List (Option ℝ)
  | .direction pos pw _ =>
    match Vbap.gainsUnNormalised v pos pw with
    | .ok g => g.map sqrtGain
    | _ => []
  | s => directOf cfg v s

/-- Input of the normalisation of the diffuse gains. -/
noncomputable def diffuseOf (cfg : Cfg) (v : Vbap.Vbap) : Source → List (Option ℝ)
  | .direction _ _ d => const cfg (if d ≥ cfg.eps then 1 else 0)
  | s => directOf cfg v s

/-- Columns written for a list of sources. -/
noncomputable def lfWrites (cfg : Cfg) (v : Vbap.Vbap) (l : List (Nat × Source)) : List (Nat × List (Option ℝ)) :=
  if cfg.lf then (l.filter fun p => p.2.direct).map fun p =>
    (p.1, normalise cfg.eps cfg.lfNorm (1 - p.2.diffuseness) (directOf cfg v p.2)) else []

@[inherit_doc lfWrites]
noncomputable def hfWrites (cfg : Cfg) (v : Vbap.Vbap) (l : List (Nat × Source)) : List (Nat × List (Option ℝ)) :=
  if cfg.hf then (l.filter fun p => p.2.direct).map fun p =>
    (p.1, normalise cfg.eps cfg.hfNorm (1 - p.2.diffuseness) (hfOf cfg v p.2)) else []

@[inherit_doc lfWrites]
noncomputable def diffuseWrites (cfg : Cfg) (v : Vbap.Vbap) (l : List (Nat × Source)) : List (Nat × List (Option ℝ)) :=
  if cfg.diffuse then l.map fun p =>
    (p.1, normalise cfg.eps cfg.diffuseNorm p.2.diffuseness (diffuseOf cfg v p.2)) else []

/-- The matrices after writing the columns of a list of sources. -/
noncomputable def applied (cfg : Cfg) (v : Vbap.Vbap) (l : List (Nat × Source)) (g : Gains) : Gains :=
  ⟨(lfWrites cfg v l).foldl (put cfg.regular) g.lf, (hfWrites cfg v l).foldl (put cfg.regular) g.hf,
    (diffuseWrites cfg v l).foldl (put cfg.regular) g.diffuse⟩

theorem applied_nil (cfg : Cfg) (v : Vbap.Vbap) (g : Gains) : applied cfg v [] g = g := by
  unfold applied lfWrites hfWrites diffuseWrites
  cases cfg.lf <;> cases cfg.hf <;> cases cfg.diffuse <;> rfl

theorem applied_append (cfg : Cfg) (v : Vbap.Vbap) (a b : List (Nat × Source)) (g : Gains) :
    applied cfg v (a ++ b) g = applied cfg v b (applied cfg v a g) := by
  unfold applied lfWrites hfWrites diffuseWrites
  cases cfg.lf <;> cases cfg.hf <;> cases cfg.diffuse <;> simp [List.foldl_append]

theorem setColumn_ok (cfg : Cfg) (m : Mat) (c : Nat) (col : List (Option ℝ)) (h : c < cfg.stride) :
    setColumn cfg m c col = .ok (put cfg.regular m (c, col)) := by
  unfold setColumn
  rw [if_pos (Or.inr h)]
  rfl

theorem setColumns_applied (cfg : Cfg) (v : Vbap.Vbap) (hs : cfg.objects ≤ cfg.stride) (g : Gains) (c : Nat)
    (hc : c < cfg.objects) (s : Source) (hd : s.direct = true) :
    setColumns cfg g c s.diffuseness (directOf cfg v s) (hfOf cfg v s) (diffuseOf cfg v s)
      = .ok (applied cfg v [(c, s)] g) := by
  have hlt : c < cfg.stride := by omega
  unfold setColumns applied lfWrites hfWrites diffuseWrites
  simp only [setColumn_ok cfg _ _ _ hlt]
  cases cfg.lf <;> cases cfg.hf <;> cases cfg.diffuse <;> simp [hd, Outcome.ok_bind]

/-- What can be rendered of a source. -/
def CanRender (cfg : Cfg) (v : Vbap.Vbap) (p : Nat × Source) : Prop :=
  p.1 < cfg.objects ∧
    match p.2 with
    | .labels ls _ => ∀ l ∈ ls, (findLabel cfg l).isSome
    | .direction pos pw _ => ∃ g, Vbap.gainsUnNormalised v pos pw = .ok g
    | .everywhere => True

theorem forEach_ok {α σ : Type} (f : σ → α → σ × Outcome Unit) (F : σ → α → σ) :
    ∀ (l : List α) (s : σ), (∀ a ∈ l, ∀ s, f s a = (F s a, .ok ())) → forEach f l s = (l.foldl F s, .ok ())
  | [], s, _ => rfl
  | a :: l, s, h => by
    unfold forEach
    rw [h a (by simp) s]
    exact forEach_ok f F l _ fun a' h' s' => h a' (by simp [h']) s'

theorem const_eq (cfg : Cfg) (x : ℝ) : const cfg x = (List.replicate cfg.regular x).map some := by
  simp [const]

theorem channels_ok {cfg : Cfg} {v : Vbap.Vbap} (hp : Proper cfg v) (d : ℝ) (chs : List Nat)
    (outs : List (List String)) (hlen : outs.length = chs.length)
    (h : ∀ p ∈ (chs.zip outs).map fun p => (p.1, Source.labels p.2 d), CanRender cfg v p) (g : Gains) :
    forEach (channelStep cfg d chs outs) (List.range chs.length) g
      = (applied cfg v ((chs.zip outs).map fun p => (p.1, Source.labels p.2 d)) g, .ok ()) := by
  rw [forEach_ok _ (fun g i => applied cfg v [(chs.getD i 0, Source.labels (outs.getD i []) d)] g)]
  · congr 1
    have : (chs.zip outs).map (fun p => (p.1, Source.labels p.2 d))
        = (List.range chs.length).map fun i => (chs.getD i 0, Source.labels (outs.getD i []) d) := by
      refine List.ext_getElem (by simp [hlen]) ?_
      intro i h1 h2
      simp at h1 h2
      simp [h1.1, h1.2]
    rw [this]
    generalize List.range chs.length = is
    induction is generalizing g with
    | nil => simp [applied_nil]
    | cons i is ih =>
      rw [List.foldl_cons, ih, List.map_cons]
      exact (applied_append cfg v [_] _ g).symm
  · intro i hi g'
    have hi' : i < chs.length := List.mem_range.1 hi
    have hio : i < outs.length := by omega
    have hmem : (chs[i], Source.labels outs[i] d) ∈ (chs.zip outs).map fun p => (p.1, Source.labels p.2 d) := by
      refine List.mem_map.2 ⟨(chs[i], outs[i]), ?_, rfl⟩
      have : (chs.zip outs)[i]'(by simp [hi', hio]) = (chs[i], outs[i]) := by simp
      rw [← this]
      exact List.getElem_mem _
    obtain ⟨hc, hl⟩ := h _ hmem
    obtain ⟨l', e1, e2, -⟩ := labelGains_ok cfg hp.labels outs[i] (List.replicate cfg.regular 0) hl (by simp)
    rw [← const_eq] at e1
    have ed : directOf cfg v (.labels outs[i] d) = l'.map some := by unfold directOf; simp only; rw [e1]
    have := setColumns_applied cfg v hp.stride g' chs[i] hc (.labels outs[i] d) rfl
    unfold channelStep
    rw [List.getElem?_eq_getElem hi', List.getElem?_eq_getElem hio]
    simp only [Outcome.ok_bind]
    rw [e1]
    simp only [Outcome.ok_bind]
    have e3 : hfOf cfg v (.labels outs[i] d) = l'.map some := ed
    have e4 : diffuseOf cfg v (.labels outs[i] d) = l'.map some := ed
    rw [ed, e3, e4] at this
    have e5 : (Source.labels outs[i] d).diffuseness = d := rfl
    rw [e5] at this
    rw [this]
    simp [attempt, hi', hio]

theorem object_ok {cfg : Cfg} {v : Vbap.Vbap} (hp : Proper cfg v) (o : Obj)
    (hch : ∀ d outputs, o.kind = .channel d outputs → outputs.length = o.channels.length)
    (h : ∀ p ∈ sources o, CanRender cfg v p) (g : Gains) :
    objectStep cfg v g o = (applied cfg v (sources o) g, .ok ()) := by
  obtain ⟨chs, k⟩ := o
  have hdir : ∀ c pos pw d, CanRender cfg v (c, .direction pos pw d) →
      attempt g (directional cfg v g c pos pw d) = (applied cfg v [(c, .direction pos pw d)] g, .ok ()) := by
    intro c pos pw d hr
    obtain ⟨hc, g0, hg⟩ := hr
    have := setColumns_applied cfg v hp.stride g c hc (.direction pos pw d) rfl
    have e1 : directOf cfg v (.direction pos pw d) = g0.map some := by unfold directOf; simp only; rw [hg]
    have e2 : hfOf cfg v (.direction pos pw d) = g0.map sqrtGain := by unfold hfOf; simp only; rw [hg]
    rw [e1, e2] at this
    unfold directional
    rw [hg]
    simp only [Outcome.ok_bind]
    have e3 : (Source.direction pos pw d).diffuseness = d := rfl
    have e4 : diffuseOf cfg v (.direction pos pw d) = const cfg (if d ≥ cfg.eps then 1 else 0) := rfl
    rw [e3, e4] at this
    rw [this]
    rfl
  have nil : ∀ g, (g, Outcome.ok ()) = (applied cfg v [] g, Outcome.ok ()) := fun g => by rw [applied_nil]
  cases k with
  | channel d outs =>
    have : sources ⟨chs, .channel d outs⟩ = (chs.zip outs).map fun p => (p.1, .labels p.2 d) := by
      cases chs with
      | nil => rfl
      | cons a l => cases l <;> rfl
    rw [this] at h ⊢
    exact channels_ok hp d chs outs (hch d outs rfl) h g
  | diffuse =>
    match chs with
    | [] => exact nil g
    | [c] =>
      have hc : c < cfg.objects := (h (c, .everywhere) (by simp [sources])).1
      have hlt : c < cfg.stride := lt_of_lt_of_le hc hp.stride
      show (if cfg.diffuse then _ else _) = _
      rw [setColumn_ok cfg _ _ _ hlt]
      unfold sources applied lfWrites hfWrites diffuseWrites
      cases cfg.lf <;> cases cfg.hf <;> cases cfg.diffuse <;>
        simp [Source.direct, Source.diffuseness, diffuseOf, directOf, Outcome.ok_bind, attempt]
    | _ :: _ :: _ => exact nil g
  | plane az el dist =>
    match chs with
    | [] => exact nil g
    | [c] => exact hdir c _ true 0 (h _ (by simp [sources]))
    | _ :: _ :: _ => exact nil g
  | point pos d =>
    match chs with
    | [] => exact nil g
    | [c] => exact hdir c _ false _ (h _ (by simp [sources]))
    | _ :: _ :: _ => exact nil g
  | other =>
    match chs with
    | [] => exact nil g
    | [c] => exact nil g
    | _ :: _ :: _ => exact nil g

theorem scene_ok {cfg : Cfg} {v : Vbap.Vbap} (hp : Proper cfg v) (scene : List Obj) (hr : Renderable cfg v scene)
    (g : Gains) :
    forEach (objectStep cfg v) scene g = (applied cfg v (sceneSources scene) g, .ok ()) := by
  rw [forEach_ok _ (fun g o => applied cfg v (sources o) g)]
  · congr 1
    clear hr
    unfold sceneSources
    induction scene generalizing g with
    | nil => simp [applied_nil]
    | cons o os ih => rw [List.foldl_cons, ih, List.flatMap_cons, applied_append]
  · intro o ho g'
    refine object_ok hp o (fun d outs h => hr.1 o ho d outs h) (fun p h => ?_) g'
    exact hr.2 p (List.mem_flatMap.2 ⟨o, ho, h⟩)

end Visr.Panning
