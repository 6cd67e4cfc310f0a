import Verif.SparseGain.Spec
import Verif.GainFader.Lemmas
import Mathlib.Algebra.Order.Field.Rat
import Mathlib.Tactic.NormNum
import Mathlib.Data.List.Induction

/-!
# C56: sparse gain matrices
-/

set_option linter.unusedSectionVars false

namespace Visr.SparseGain
open Visr Visr.GainFader

variable {K : Type*} [Field K] [LinearOrder K] [IsStrictOrderedRing K]

/-! ## Helpers -/

theorem setRoutings_ok {inputs outputs points : Nat} (rs : List (Routing K)) (next : List K)
    (h : Fits inputs outputs points rs) :
    setRoutings inputs outputs points rs next = (rs.foldl (fun n r => n.set r.entry r.gain) next, true) := by
  induction rs generalizing next with
  | nil => rfl
  | cons r rs ih =>
    obtain ⟨h1, h2, h3⟩ := h r (by simp)
    unfold setRoutings
    rw [if_neg (by omega), if_neg (by omega), if_neg (by omega), ih _ (fun x hx => h x (by simp [hx]))]
    rfl

theorem setRoutings_bad {inputs outputs points : Nat} (rs : List (Routing K)) (next : List K)
    (h : ¬ Fits inputs outputs points rs) : (setRoutings inputs outputs points rs next).2 = false := by
  induction rs generalizing next with
  | nil => exact absurd (fun r hr => by cases hr) h
  | cons r rs ih =>
    unfold setRoutings
    split_ifs with h1 h2 h3
    · rfl
    · rfl
    · rfl
    · apply ih
      intro hf
      apply h
      intro x hx
      rcases List.mem_cons.1 hx with e | e
      · subst e; omega
      · exact hf x e

theorem foldl_set_length (rs : List (Routing K)) (next : List K) :
    (rs.foldl (fun n r => n.set r.entry r.gain) next).length = next.length := by
  induction rs generalizing next with
  | nil => rfl
  | cons r rs ih => rw [List.foldl_cons, ih]; simp

theorem foldl_set_get (rs : List (Routing K)) (next : List K) (e : Nat) (he : e < next.length) :
    (rs.foldl (fun n r => n.set r.entry r.gain) next).getD e 0 = listGain rs (fun e => next.getD e 0) e := by
  induction rs using List.reverseRecOn with
  | nil => simp [listGain]
  | append_singleton rs r ih =>
    rw [List.foldl_append, List.foldl_cons, List.foldl_nil]
    unfold listGain at *
    rw [List.filter_append]
    by_cases h : r.entry = e
    · subst h
      have hl : r.entry < (rs.foldl (fun n r => n.set r.entry r.gain) next).length := by
        rw [foldl_set_length]; exact he
      simp [hl]
    · rw [List.getD_eq_getElem?_getD, List.getElem?_set_ne h, ← List.getD_eq_getElem?_getD, ih]
      simp [h]

theorem listGain_mem {rs : List (Routing K)} {e : Nat} (h : ∃ r ∈ rs, r.entry = e) (f g : Nat → K) :
    listGain rs f e = listGain rs g e := by
  unfold listGain
  obtain ⟨r, hr, he⟩ := h
  have hne : rs.filter (·.entry = e) ≠ [] := by
    intro h0
    have : r ∈ rs.filter (·.entry = e) := by simp [hr, he]
    rw [h0] at this; cases this
  rw [List.getLast?_eq_some_getLast hne]
  rfl

/-- Samples far enough from the last change have the same gain. -/
theorem gainAt_min {s b P : Nat} (hb : 0 < b) (hP : P = (s + b - 1) / b) (g₀ g₁ : K) (n i : Nat) :
    gainAt s g₀ g₁ (min n P * b + i) = gainAt s g₀ g₁ (n * b + i) := by
  by_cases h : n ≤ P
  · rw [Nat.min_eq_left h]
  · have hc := ceil_bounds (s := s) hb
    rw [← hP] at hc
    have h1 : min n P = P := by omega
    have h2 : P * b ≤ n * b := Nat.mul_le_mul_right b (by omega)
    unfold gainAt
    rw [h1, progress_late (by omega), progress_late (by omega)]

theorem gainAt_late {s : Nat} {g₀ g₁ : K} {t : Nat} (h : s ≤ t) : gainAt s g₀ g₁ t = g₁ := by
  unfold gainAt; rw [progress_late h]; ring

/-! ## One block -/

/-- Partial sums of the loop over the routings. -/
theorem mixLoop_ok {st : State K} {b s : Nat} (good : Good st.fader b s) (audio : List (List K)) (outputs : Nat)
    (rs : List (Routing K)) (a : Nat → Nat → K)
    (h1 : ∀ r ∈ rs, r.entry < st.prev.length ∧ r.entry < st.next.length ∧ r.row < outputs) :
    mixLoop st audio rs ((List.range outputs).map fun o => (List.range b).map (a o)) =
      .ok ((List.range outputs).map fun o => (List.range b).map fun k => a o k +
        ((rs.filter (·.row = o)).map fun r => gainAt s (st.prev.getD r.entry 0) (st.next.getD r.entry 0)
          (st.ramp * b + k) * (audio.getD r.col []).getD k 0).sum) := by
  induction rs generalizing a with
  | nil => simp [mixLoop]
  | cons r rs ih =>
    obtain ⟨e1, e2, e3⟩ := h1 r (by simp)
    simp only [mixLoop]
    rw [if_neg (by omega), good.scaleAndAccumulate]
    have hrow : ((List.range outputs).map fun o => (List.range b).map (a o)).getD r.row []
        = (List.range b).map (a r.row) := by
      rw [List.getD_eq_getElem?_getD, List.getElem?_map, List.getElem?_range e3]; rfl
    rw [hrow]
    have hset : ((List.range outputs).map fun o => (List.range b).map (a o)).set r.row
        ((List.range b).map fun i => ((List.range b).map (a r.row)).getD i 0 +
          gainAt s (st.prev.getD r.entry 0) (st.next.getD r.entry 0) (st.ramp * b + i) *
            (audio.getD r.col []).getD i 0)
        = (List.range outputs).map fun o => (List.range b).map fun k =>
          a o k + if r.row = o then gainAt s (st.prev.getD r.entry 0) (st.next.getD r.entry 0) (st.ramp * b + k) *
            (audio.getD r.col []).getD k 0 else 0 := by
      apply List.ext_getElem?
      intro o
      by_cases ho : o < outputs
      · rw [List.getElem?_map, List.getElem?_range ho]
        by_cases hr : r.row = o
        · subst hr
          rw [List.getElem?_set_self (by simpa using e3)]
          simp only [Option.map_some, if_true]
          congr 1
          apply List.map_congr_left
          intro k hk
          have hk : k < b := by simpa using hk
          rw [List.getD_eq_getElem?_getD, List.getElem?_map, List.getElem?_range hk]
          rfl
        · rw [List.getElem?_set_ne hr, List.getElem?_map, List.getElem?_range ho]
          simp [hr]
      · rw [List.getElem?_eq_none (by simp; omega), List.getElem?_eq_none (by simp; omega)]
    rw [hset, ih _ (fun x hx => h1 x (by simp [hx]))]
    congr 1
    apply List.map_congr_left
    intro o _
    apply List.map_congr_left
    intro k _
    rw [List.filter_cons]
    by_cases hr : r.row = o
    · simp only [hr, decide_true, if_true, List.map_cons, List.sum_cons]; ring
    · simp [hr]

/-! ## Histories -/

/-- The state after events with view `v`. -/
structure Rep (st : State K) (inputs outputs points b s : Nat) (v : View K) : Prop where
  good : Good st.fader b s
  ins : st.inputs = inputs
  outs : st.outputs = outputs
  pts : st.points = points
  block : st.blockSize = b
  prevLen : st.prev.length = points
  nextLen : st.next.length = points
  rout : st.routings = v.routings
  fits : Fits inputs outputs points v.routings
  target : ∀ r ∈ v.routings, st.next.getD r.entry 0 = v.target r.entry
  ramp : st.ramp = min v.age st.fader.interpolationPeriods
  newR : st.newRoutings = v.newRoutings
  newG : st.newGains = v.newGains
  fitR : ∀ rs, v.newRoutings = some rs → Fits inputs outputs points rs
  fitG : ∀ g, v.newGains = some g → g.length = points

theorem rep_mk {junk : K} {inputs outputs b s points : Nat} {initial : List (Routing K)} {st : State K}
    (h : mk junk inputs outputs b s points initial = .ok st) :
    Rep st inputs outputs points b s (View.init initial) ∧ st.prev = List.replicate points 0 := by
  unfold mk at h
  cases hf : GainFader.mk junk b s with
  | throw e => simp [hf] at h
  | ub => simp [hf] at h
  | ok f =>
    simp only [hf] at h
    by_cases hfit : Fits inputs outputs points initial
    · rw [setRoutings_ok initial _ hfit] at h
      simp only [if_true] at h
      injection h with h
      subst h
      refine ⟨⟨mk_good hf, rfl, rfl, rfl, rfl, by simp, ?_, rfl, hfit, ?_, by simp [View.init], rfl, rfl, ?_, ?_⟩, rfl⟩
      · simp [foldl_set_length]
      · intro r hr
        have hlt := (hfit r hr).1
        rw [foldl_set_get _ _ _ (by simpa using hlt)]
        exact listGain_mem (rs := initial) ⟨r, hr, rfl⟩ _ (fun _ => 0)
      · intro rs h; cases h
      · intro g h; cases h
    · have := setRoutings_bad initial (List.replicate points (0 : K)) hfit
      simp [this] at h

/-- Effect of the routing input. -/
theorem routed_rep {st : State K} {inputs outputs points b s : Nat} {v : View K} (r : Rep st inputs outputs points b s v) :
    ∃ st', applyRoutings st = (st', .ok ()) ∧ Rep st' inputs outputs points b s v.routed ∧
      ((st.newRoutings = none ∧ st' = st) ∨
        (∃ rs, st.newRoutings = some rs ∧ st'.prev = st.next ∧ st'.next.length = points)) := by
  unfold applyRoutings View.routed
  cases hn : st.newRoutings with
  | none =>
    rw [← r.newR, hn]
    exact ⟨st, rfl, r, Or.inl ⟨rfl, rfl⟩⟩
  | some rs =>
    have hv : v.newRoutings = some rs := by rw [← r.newR]; exact hn
    have hfit := r.fitR rs hv
    have hso := setRoutings_ok rs st.prev hfit
    rw [← r.ins, ← r.outs, ← r.pts] at hso
    simp only [hv, hso, if_true]
    refine ⟨_, rfl, ⟨r.good, r.ins, r.outs, r.pts, r.block, r.nextLen, ?_, rfl, hfit, ?_, ?_, rfl, r.newG, ?_, r.fitG⟩,
      Or.inr ⟨rs, rfl, rfl, ?_⟩⟩
    · rw [foldl_set_length]; exact r.prevLen
    · intro x hx
      have hlt := (hfit x hx).1
      rw [foldl_set_get _ _ _ (by rw [r.prevLen]; exact hlt)]
      exact listGain_mem ⟨x, hx, rfl⟩ _ _
    · simp
    · intro rs h; cases h
    · rw [foldl_set_length]; exact r.prevLen

/-- Effect of the gain input. -/
theorem gained_rep {st : State K} {inputs outputs points b s : Nat} {v : View K}
    (r : Rep st inputs outputs points b s v) :
    Rep (applyGains st) inputs outputs points b s v.gained ∧
      ((st.newGains = none ∧ applyGains st = st) ∨
        (∃ g, st.newGains = some g ∧ (applyGains st).prev = st.next)) := by
  unfold applyGains View.gained
  cases hn : st.newGains with
  | none =>
    rw [← r.newG, hn]
    exact ⟨r, Or.inl ⟨rfl, rfl⟩⟩
  | some g =>
    have hv : v.newGains = some g := by rw [← r.newG]; exact hn
    simp only [hv]
    refine ⟨⟨r.good, r.ins, r.outs, r.pts, r.block, r.nextLen, r.fitG g hv, r.rout, r.fits, ?_, ?_, r.newR, rfl, r.fitR,
      ?_⟩, Or.inr ⟨g, by simp⟩⟩
    · intro x hx; rfl
    · simp
    · intro g h; cases h

/-- One `process()` call: the gains move from the previous gain vector to the targets. -/
theorem process_rep {st : State K} {inputs outputs points b s : Nat} {v : View K}
    (r : Rep st inputs outputs points b s v) (audio : List (List K)) :
    ∃ st1 st', applyRoutings st = (st1, .ok ()) ∧ (step st (.process audio)).1 = st' ∧
      Rep st' inputs outputs points b s (v.step (.process audio)) ∧ st'.prev = (applyGains st1).prev ∧
      (step st (.process audio)).2 = .ok (mixed outputs b v.routed.gained.routings (fun x k =>
        gainAt s (st'.prev.getD x.entry 0) (v.routed.gained.target x.entry) (v.routed.gained.age * b + k)) audio) := by
  obtain ⟨st1, e1, r1, -⟩ := routed_rep r
  obtain ⟨r2, -⟩ := gained_rep r1
  refine ⟨st1, _, e1, rfl, ?_⟩
  obtain ⟨st2, hst2⟩ : ∃ st2, st2 = applyGains st1 := ⟨_, rfl⟩
  rw [← hst2] at r2
  obtain ⟨w, hw⟩ : ∃ w, w = v.routed.gained := ⟨_, rfl⟩
  rw [← hw] at r2
  have hz : List.replicate st2.outputs (List.replicate st2.blockSize (0 : K))
      = (List.range outputs).map fun _ => (List.range b).map fun _ => 0 := by
    rw [r2.outs, r2.block]
    apply List.ext_getElem <;> simp
  have hmix := mixLoop_ok r2.good audio outputs st2.routings (fun _ _ => 0) (by
    intro x hx
    rw [r2.rout] at hx
    have := r2.fits x hx
    rw [r2.prevLen, r2.nextLen]
    exact ⟨this.1, this.1, this.2.1⟩)
  rw [← hz] at hmix
  have hstep : step st (.process audio) =
      ({ st2 with ramp := min (st2.ramp + 1) st2.fader.interpolationPeriods }, .ok (mixed outputs b w.routings
        (fun x k => gainAt s (st2.prev.getD x.entry 0) (w.target x.entry) (w.age * b + k)) audio)) := by
    simp only [step, e1, ← hst2, hmix]
    congr 2
    unfold mixed
    apply List.map_congr_left
    intro o _
    apply List.map_congr_left
    intro k _
    rw [zero_add, r2.rout]
    congr 1
    apply List.map_congr_left
    intro x hx
    rw [r2.target x (List.mem_of_mem_filter hx), r2.ramp, gainAt_min r2.good.pos r2.good.periods]
  rw [hstep]
  refine ⟨⟨r2.good, r2.ins, r2.outs, r2.pts, r2.block, r2.prevLen, r2.nextLen, ?_, ?_, ?_, ?_, ?_, ?_, ?_, ?_⟩, ?_, ?_⟩
  · show st2.routings = _; rw [r2.rout, hw]; rfl
  · have := r2.fits; rw [hw] at this; exact this
  · have := r2.target; rw [hw] at this; exact this
  · show min (st2.ramp + 1) st2.fader.interpolationPeriods =
      min (v.routed.gained.age + 1) st2.fader.interpolationPeriods
    rw [r2.ramp, hw]
    omega
  · show st2.newRoutings = _; rw [r2.newR, hw]; rfl
  · show st2.newGains = _; rw [r2.newG, hw]; rfl
  · have := r2.fitR; rw [hw] at this; exact this
  · have := r2.fitG; rw [hw] at this; exact this
  · show st2.prev = _; rw [hst2]
  · rw [hw]

theorem step_rep {st : State K} {inputs outputs points b s : Nat} {v : View K} (r : Rep st inputs outputs points b s v)
    (op : Op K) (hop : AllFit inputs outputs points [op]) :
    Rep (step st op).1 inputs outputs points b s (v.step op) ∧ ∃ out, (step st op).2 = .ok out := by
  have hop := hop op (by simp)
  cases op with
  | routings rs =>
    refine ⟨⟨r.good, r.ins, r.outs, r.pts, r.block, r.prevLen, r.nextLen, r.rout, r.fits, r.target, r.ramp, rfl, r.newG,
      ?_, r.fitG⟩, _, rfl⟩
    intro rs' h; cases h; exact hop
  | gains g =>
    refine ⟨⟨r.good, r.ins, r.outs, r.pts, r.block, r.prevLen, r.nextLen, r.rout, r.fits, r.target, r.ramp, r.newR, rfl,
      r.fitR, ?_⟩, _, rfl⟩
    intro g' h; cases h; exact hop
  | point p => exact ⟨r, _, rfl⟩
  | process audio =>
    obtain ⟨st1, st', -, h2, h3, -, h5⟩ := process_rep r audio
    exact ⟨h2 ▸ h3, _, h5⟩

theorem final_rep {st : State K} {inputs outputs points b s : Nat} {v : View K} (r : Rep st inputs outputs points b s v)
    (ops : List (Op K)) (hops : AllFit inputs outputs points ops) :
    Rep (final step st ops) inputs outputs points b s (ops.foldl View.step v) := by
  induction ops generalizing st v with
  | nil => exact r
  | cons op ops ih =>
    rw [final_cons, List.foldl_cons]
    exact ih (step_rep r op (fun x hx => hops x (by simp at hx; simp [hx]))).1 (fun x hx => hops x (by simp [hx]))

/-! ## C56 -/

/-- **C56, no exceptions.** With settings that fit, every call returns normally. -/
theorem sparse_all_ok (junk : K) (inputs outputs b s points : Nat) (initial : List (Routing K)) (st : State K)
    (hmk : mk junk inputs outputs b s points initial = .ok st) (ops : List (Op K))
    (hops : AllFit inputs outputs points ops) : ∀ x ∈ (run step st ops).2, ∃ out, x = .ok out := by
  have r := (rep_mk hmk).1
  generalize View.init initial = v at r
  induction ops generalizing st v with
  | nil => intro x hx; simp [run] at hx
  | cons op ops ih =>
    obtain ⟨r', out, ho⟩ := step_rep r op (fun x hx => hops x (by simp at hx; simp [hx]))
    intro x hx
    rcases List.mem_cons.1 hx with hx | hx
    · exact ⟨out, hx.trans ho⟩
    · have aux : ∀ (ops : List (Op K)) (st : State K) (v : View K), Rep st inputs outputs points b s v →
          AllFit inputs outputs points ops → ∀ x ∈ (run step st ops).2, ∃ out, x = .ok out := by
        intro ops
        induction ops with
        | nil => intro _ _ _ _ x hx; simp [run] at hx
        | cons op ops ih =>
          intro st v r hops x hx
          obtain ⟨r', out, ho⟩ := step_rep r op (fun x hx => hops x (by simp at hx; simp [hx]))
          rcases List.mem_cons.1 hx with hx | hx
          · exact ⟨out, hx.trans ho⟩
          · exact ih _ _ r' (fun x hx => hops x (by simp [hx])) x hx
      exact aux ops _ _ r' (fun x hx => hops x (by simp [hx])) x hx

/-- **C56, settled gains.** After every history of routing lists, gain vectors and blocks, once the transition after the
last change is complete, each output is the sum of the routed inputs times the gains in force. -/
theorem sparse_settled (junk : K) (inputs outputs b s points : Nat) (initial : List (Routing K)) (st : State K)
    (hmk : mk junk inputs outputs b s points initial = .ok st) (ops : List (Op K))
    (hops : AllFit inputs outputs points ops) (audio : List (List K))
    (hR : (view initial ops).newRoutings = none) (hG : (view initial ops).newGains = none)
    (hage : s ≤ (view initial ops).age * b) :
    (step (final step st ops) (.process audio)).2 =
      .ok (mixed outputs b (view initial ops).routings (fun r _ => (view initial ops).target r.entry) audio) := by
  have r := final_rep (rep_mk hmk).1 ops hops
  obtain ⟨st1, st', -, -, -, -, h5⟩ := process_rep r audio
  rw [h5]
  have hv : (ops.foldl View.step (View.init initial)).routed.gained = view initial ops := by
    show (view initial ops).routed.gained = _
    unfold View.routed; rw [hR]; simp only; unfold View.gained; rw [hG]
  rw [hv]
  congr 2
  funext x k
  exact gainAt_late (by omega)

/-- Blocks without new settings. -/
theorem quiet_blocks {st : State K} {inputs outputs points b s : Nat} {v : View K}
    (r : Rep st inputs outputs points b s v) (hR : v.newRoutings = none) (hG : v.newGains = none)
    (blocks : List (List (List K))) (audio : List (List K)) :
    (step (final step st (blocks.map .process)) (.process audio)).2 =
      .ok (mixed outputs b v.routings (fun x k => gainAt s (st.prev.getD x.entry 0) (v.target x.entry)
        ((v.age + blocks.length) * b + k)) audio) := by
  induction blocks generalizing st v with
  | nil =>
    obtain ⟨st1, st', h1, -, -, h4, h5⟩ := process_rep r audio
    have hv : v.routed.gained = v := by
      unfold View.routed; rw [hR]; simp only; unfold View.gained; rw [hG]
    have e1 : st1 = st := by
      unfold applyRoutings at h1; rw [r.newR, hR] at h1; exact (Prod.mk.inj h1).1.symm
    have e2 : applyGains st = st := by unfold applyGains; rw [r.newG, hG]
    rw [e1, e2] at h4
    rw [hv] at h5
    rw [List.map_nil, final_nil, h5, h4]; rfl
  | cons a blocks ih =>
    obtain ⟨st1, st', h1, h2, h3, h4, -⟩ := process_rep r a
    have hv : v.routed.gained = v := by
      unfold View.routed; rw [hR]; simp only; unfold View.gained; rw [hG]
    have e1 : st1 = st := by
      unfold applyRoutings at h1; rw [r.newR, hR] at h1; exact (Prod.mk.inj h1).1.symm
    have e2 : applyGains st = st := by unfold applyGains; rw [r.newG, hG]
    rw [e1, e2] at h4
    have hs : v.step (.process a) = { v with age := v.age + 1 } := by simp only [View.step, hv]
    rw [List.map_cons, final_cons, h2]
    rw [hs] at h3
    rw [ih h3 hR hG, h4]
    simp only [List.length_cons]
    rw [show v.age + 1 + blocks.length = v.age + (blocks.length + 1) by omega]

/-- **C56, initial routings.** Until the first change the gains rise linearly from zero to those of the initial
routings. -/
theorem sparse_initial (junk : K) (inputs outputs b s points : Nat) (initial : List (Routing K)) (st : State K)
    (hmk : mk junk inputs outputs b s points initial = .ok st) (blocks : List (List (List K))) (audio : List (List K)) :
    (step (final step st (blocks.map .process)) (.process audio)).2 =
      .ok (mixed outputs b initial (fun x k => gainAt s 0 (listGain initial (fun _ => 0) x.entry)
        (blocks.length * b + k)) audio) := by
  obtain ⟨r, hp⟩ := rep_mk hmk
  rw [quiet_blocks r rfl rfl]
  congr 2
  funext x k
  have : st.prev.getD x.entry 0 = 0 := by
    rw [hp, List.getD_eq_getElem?_getD, List.getElem?_replicate]; split_ifs <;> rfl
  rw [this]
  simp [View.init]

/-- **C56, new gains.** After a new gain vector the gains of all routings move linearly from the gains that were in force
to the new ones, whatever happened before. -/
theorem sparse_gain_transition (junk : K) (inputs outputs b s points : Nat) (initial : List (Routing K)) (st : State K)
    (hmk : mk junk inputs outputs b s points initial = .ok st) (ops : List (Op K))
    (hops : AllFit inputs outputs points ops) (hR : (view initial ops).newRoutings = none)
    (g : List K) (hg : g.length = points) (blocks : List (List (List K))) (audio : List (List K)) :
    (step (final step st (ops ++ .gains g :: blocks.map .process)) (.process audio)).2 =
      .ok (mixed outputs b (view initial ops).routings (fun x k => gainAt s ((view initial ops).target x.entry)
        (g.getD x.entry 0) (blocks.length * b + k)) audio) := by
  have r := final_rep (rep_mk hmk).1 ops hops
  obtain ⟨v, hv⟩ : ∃ v, v = view initial ops := ⟨_, rfl⟩
  change Rep _ _ _ _ _ _ (view initial ops) at r
  rw [← hv] at r hR ⊢
  rw [final_append, final_cons]
  set s0 := final step st ops with hs0
  have r1 : Rep (step s0 (.gains g)).1 inputs outputs points b s { v with newGains := some g } :=
    (step_rep r (.gains g) (by intro x hx; simp at hx; subst hx; exact hg)).1
  have n1 : (step s0 (.gains g)).1.newRoutings = none := by rw [r1.newR]; exact hR
  have hnext : ∀ x ∈ v.routings, (step s0 (.gains g)).1.next.getD x.entry 0 = v.target x.entry := r1.target
  set s1 := (step s0 (.gains g)).1 with hs1
  have happ : applyRoutings s1 = (s1, .ok ()) := by unfold applyRoutings; rw [n1]
  have hprev : (applyGains s1).prev = s1.next := by
    unfold applyGains; rw [show s1.newGains = some g from r1.newG]
  have hvr : ({ v with newGains := some g } : View K).routed.gained =
      { v with target := fun e => g.getD e 0, age := 0, newGains := none } := by
    unfold View.routed; simp only [hR]; rfl
  cases blocks with
  | nil =>
    obtain ⟨st1, st', h1, -, -, h4, h5⟩ := process_rep r1 audio
    rw [happ] at h1
    have e1 : s1 = st1 := (Prod.mk.inj h1).1
    rw [← e1, hprev] at h4
    rw [hvr] at h5
    rw [List.map_nil, final_nil, h5, h4]
    unfold mixed
    congr 1
    apply List.map_congr_left; intro o _
    apply List.map_congr_left; intro k _
    congr 1
    apply List.map_congr_left; intro x hx
    show gainAt s (s1.next.getD x.entry 0) _ _ * _ = _
    rw [hnext x (List.mem_of_mem_filter hx)]
    rfl
  | cons a blocks =>
    obtain ⟨st1, st', h1, h2, h3, h4, -⟩ := process_rep r1 a
    rw [happ] at h1
    have e1 : s1 = st1 := (Prod.mk.inj h1).1
    rw [← e1, hprev] at h4
    have hs : ({ v with newGains := some g } : View K).step (.process a) =
        { v with target := fun e => g.getD e 0, age := 1, newGains := none } := by
      simp only [View.step, hvr]
    rw [hs] at h3
    rw [List.map_cons, final_cons, h2, quiet_blocks h3 hR rfl, h4]
    unfold mixed
    congr 1
    apply List.map_congr_left; intro o _
    apply List.map_congr_left; intro k _
    congr 1
    apply List.map_congr_left; intro x hx
    show gainAt s (s1.next.getD x.entry 0) _ _ * _ = _
    rw [hnext x (List.mem_of_mem_filter hx)]
    simp only [List.length_cons]
    rw [show 1 + blocks.length = blocks.length + 1 by omega]

/-- **C56, new routings.** After a new routing list all of whose entries were in use, the gains move linearly from the
gains of the entries that were in force to the gains in the list. Missing: entries that were not in use before start
from zero, see `sparse_new_entry_starts_from_old_gain`. -/
theorem sparse_routing_transition_partial (junk : K) (inputs outputs b s points : Nat) (initial : List (Routing K))
    (st : State K) (hmk : mk junk inputs outputs b s points initial = .ok st) (ops : List (Op K))
    (hops : AllFit inputs outputs points ops) (hG : (view initial ops).newGains = none)
    (rs : List (Routing K)) (hrs : Fits inputs outputs points rs)
    (hused : ∀ x ∈ rs, ∃ y ∈ (view initial ops).routings, y.entry = x.entry)
    (blocks : List (List (List K))) (audio : List (List K)) :
    (step (final step st (ops ++ .routings rs :: blocks.map .process)) (.process audio)).2 =
      .ok (mixed outputs b rs (fun x k => gainAt s ((view initial ops).target x.entry)
        (listGain rs (view initial ops).target x.entry) (blocks.length * b + k)) audio) := by
  have r := final_rep (rep_mk hmk).1 ops hops
  obtain ⟨v, hv⟩ : ∃ v, v = view initial ops := ⟨_, rfl⟩
  change Rep _ _ _ _ _ _ (view initial ops) at r
  rw [← hv] at r hG hused ⊢
  rw [final_append, final_cons]
  set s0 := final step st ops with hs0
  have r1 : Rep (step s0 (.routings rs)).1 inputs outputs points b s { v with newRoutings := some rs } :=
    (step_rep r (.routings rs) (by intro x hx; simp at hx; subst hx; exact hrs)).1
  have hnext : ∀ x ∈ rs, (step s0 (.routings rs)).1.next.getD x.entry 0 = v.target x.entry := by
    intro x hx
    obtain ⟨y, hy, he⟩ := hused x hx
    rw [← he]; exact r1.target y hy
  set s1 := (step s0 (.routings rs)).1 with hs1
  obtain ⟨s2, happ, r2, hcase⟩ := routed_rep r1
  have hprev : s2.prev = s1.next := by
    rcases hcase with ⟨h, -⟩ | ⟨rs', -, h, -⟩
    · rw [r1.newR] at h; cases h
    · exact h
  have hgn : s2.newGains = none := by rw [r2.newG]; exact hG
  have hsame : applyGains s2 = s2 := by unfold applyGains; rw [hgn]
  have hvr : ({ v with newRoutings := some rs } : View K).routed.gained =
      { v with routings := rs, target := listGain rs v.target, age := 0, newRoutings := none } := by
    unfold View.routed View.gained; simp only [hG]
  cases blocks with
  | nil =>
    obtain ⟨st1, st', h1, -, -, h4, h5⟩ := process_rep r1 audio
    rw [happ] at h1
    have e1 : s2 = st1 := (Prod.mk.inj h1).1
    rw [← e1, hsame, hprev] at h4
    rw [hvr] at h5
    rw [List.map_nil, final_nil, h5, h4]
    unfold mixed
    congr 1
    apply List.map_congr_left; intro o _
    apply List.map_congr_left; intro k _
    congr 1
    apply List.map_congr_left; intro x hx
    show gainAt s (s1.next.getD x.entry 0) _ _ * _ = _
    rw [hnext x (List.mem_of_mem_filter hx)]
    rfl
  | cons a blocks =>
    obtain ⟨st1, st', h1, h2, h3, h4, -⟩ := process_rep r1 a
    rw [happ] at h1
    have e1 : s2 = st1 := (Prod.mk.inj h1).1
    rw [← e1, hsame, hprev] at h4
    have hs : ({ v with newRoutings := some rs } : View K).step (.process a) =
        { v with routings := rs, target := listGain rs v.target, age := 1, newRoutings := none } := by
      simp only [View.step, hvr]
    rw [hs] at h3
    rw [List.map_cons, final_cons, h2, quiet_blocks h3 rfl hG, h4]
    unfold mixed
    congr 1
    apply List.map_congr_left; intro o _
    apply List.map_congr_left; intro k _
    congr 1
    apply List.map_congr_left; intro x hx
    show gainAt s (s1.next.getD x.entry 0) _ _ * _ = _
    rw [hnext x (List.mem_of_mem_filter hx)]
    simp only [List.length_cons]
    rw [show 1 + blocks.length = blocks.length + 1 by omega]

/-! ## Negations -/

/-- Component for the examples: one input, one output, blocks of one sample, transitions of two samples, two entries;
entry 0 connects input and output with gain 4. -/
def ex : State ℚ := match mk (0 : ℚ) 1 1 1 2 2 [⟨0, 0, 0, 4⟩] with
  | .ok s => s
  | _ => ⟨0, 0, 0, 0, ⟨0, 0, 0, []⟩, [], [], [], 0, none, none⟩

theorem ex_mk : mk (0 : ℚ) 1 1 1 2 2 [⟨0, 0, 0, 4⟩] = .ok ex := by
  obtain ⟨f, hf⟩ := mk_ok (0 : ℚ) 2 (b := 1) (by norm_num)
  simp [ex, mk, hf, setRoutings]

/-- All outputs of the example for a sequence of events. -/
def exOut (ops : List (Op ℚ)) : List (Outcome (List (List ℚ))) := (run step ex ops).2

/-- **C56 (negation).** A routing that was not in use does not start from silence but from whatever gain was stored for
its entry: entry 0 is removed after having had gain 4, then it comes back with gain 1; the first sample after that has
gain 5/2, half way from 4 to 1, instead of 1/2. -/
theorem sparse_new_entry_starts_from_old_gain :
    exOut [.process [[1]], .process [[1]], .routings [], .process [[1]], .routings [], .process [[1]],
      .process [[1]], .process [[1]], .routings [⟨0, 0, 0, 1⟩], .process [[1]]] =
      [.ok [[2]], .ok [[4]], .ok [], .ok [[0]], .ok [], .ok [[0]], .ok [[0]], .ok [[0]], .ok [], .ok [[5/2]]] := by
  decide +kernel

/-- **C56 (negation).** A change during a transition does not continue from the gain reached: half way from 0 to 4
(gain 2) the change to gain 0 continues with gain 2 (half way from 4 to 0) where it should be 1, half way from 2 to 0. -/
theorem sparse_interrupted_jumps :
    exOut [.process [[1]], .gains [0, 0], .process [[1]]] = [.ok [[2]], .ok [], .ok [[2]]] := by
  decide +kernel

/-- **C56 (negation).** New routings and new gains that arrive in the same block: the transition starts from the gains in
the new routing list, which never were in force. Settled at gain 4, the routing list says 100 and the gains 0; the next
sample has gain 50. -/
theorem sparse_both_changes_jump :
    exOut [.process [[1]], .process [[1]], .routings [⟨0, 0, 0, 100⟩], .gains [0, 0], .process [[1]]] =
      [.ok [[2]], .ok [[4]], .ok [], .ok [], .ok [[50]]] := by
  decide +kernel

/-- **C56.** A routing list that does not fit makes every `process()` call throw until another list arrives. -/
theorem sparse_bad_routings_block (s : State K) (rs : List (Routing K)) (h : ¬ Fits s.inputs s.outputs s.points rs)
    (blocks : List (List (List K))) :
    ∀ x ∈ (run step (step s (.routings rs)).1 (blocks.map .process)).2, x = .throw .runtimeError := by
  suffices ∀ st : State K, st.inputs = s.inputs → st.outputs = s.outputs → st.points = s.points →
      st.newRoutings = some rs →
      ∀ x ∈ (run step st (blocks.map .process)).2, x = .throw .runtimeError from
    this _ rfl rfl rfl rfl
  induction blocks with
  | nil => intro st _ _ _ _ x hx; simp [run] at hx
  | cons a blocks ih =>
    intro st h1 h2 h3 h4 x hx
    have hb := setRoutings_bad rs st.prev (h1 ▸ h2 ▸ h3 ▸ h)
    have hs : step st (.process a) = (⟨st.inputs, st.outputs, st.points, st.blockSize,
        st.fader, st.next, (setRoutings st.inputs st.outputs st.points rs st.prev).1, st.routings, st.ramp,
        st.newRoutings, st.newGains⟩, .throw .runtimeError) := by
      simp only [step, applyRoutings, h4, hb, Bool.false_eq_true, if_false]
    rw [List.map_cons] at hx
    simp only [run, hs] at hx
    rcases List.mem_cons.1 hx with hx | hx
    · exact hx
    · exact ih _ (by exact h1) (by exact h2) (by exact h3) (by exact h4) x hx

/-- **C56.** Messages to the input for single routing points are ignored. -/
theorem sparse_points_ignored (s : State K) (r : Routing K) : (step s (.point r)).1 = s := rfl

example : ¬ Fits 1 1 2 [⟨0, 1, 0, (1 : ℚ)⟩] := by
  intro h; have := h _ (List.mem_singleton.2 rfl); simp at this

example : AllFit 1 1 2 [.process [[1]], .process [[1]], .gains [(3 : ℚ), 0], .process [[1]], .process [[1]]] ∧
    (view [⟨0, 0, 0, (4 : ℚ)⟩] [.process [[1]], .process [[1]], .gains [(3 : ℚ), 0], .process [[1]], .process [[1]]]).age
      = 2 := by
  refine ⟨?_, rfl⟩
  intro op h
  simp only [List.mem_cons, List.not_mem_nil, or_false] at h
  rcases h with rfl | rfl | rfl | rfl | rfl <;> simp

/-! ## Adding signals -/

/-- **C56, sums.** The output of `rcl::Add` is, sample by sample, the sum of all inputs, for any number of inputs
including none. -/
theorem add_sum (width period : Nat) (f : List (Nat → Nat → K)) :
    add width period (f.map fun x => (List.range width).map fun c => (List.range period).map (x c)) =
      (List.range width).map fun c => (List.range period).map fun k => (f.map fun x => x c k).sum := by
  have hadd : ∀ a b : Nat → Nat → K, addInput ((List.range width).map fun c => (List.range period).map (a c))
      ((List.range width).map fun c => (List.range period).map (b c)) =
      (List.range width).map fun c => (List.range period).map fun k => a c k + b c k := by
    intro a b
    unfold addInput
    rw [List.zipWith_map, List.zipWith_self]
    apply List.map_congr_left; intro c _
    rw [List.zipWith_map, List.zipWith_self]
  have hfold : ∀ (l : List (Nat → Nat → K)) (a : Nat → Nat → K),
      (l.map fun x => (List.range width).map fun c => (List.range period).map (x c)).foldl addInput
        ((List.range width).map fun c => (List.range period).map (a c)) =
      (List.range width).map fun c => (List.range period).map fun k => a c k + (l.map fun x => x c k).sum := by
    intro l
    induction l with
    | nil => intro a; simp
    | cons x l ih =>
      intro a
      rw [List.map_cons, List.foldl_cons, hadd, ih]
      simp only [List.map_cons, List.sum_cons, add_assoc]
  match f with
  | [] =>
    simp only [List.map_nil, add, List.sum_nil]
    apply List.ext_getElem <;> simp
  | [a] => simp [add]
  | a :: b :: l =>
    simp only [List.map_cons, add]
    rw [hadd, hfold]
    simp only [List.sum_cons, add_assoc]

/-- **C56.** The null source outputs zeros. -/
theorem nullSource_zero (width period c k : Nat) (hc : c < width) (hk : k < period) :
    (nullSource (K := K) width period)[c]? = some (List.replicate period 0) ∧
    (List.replicate period (0 : K))[k]? = some 0 := by
  simp [nullSource, hc, hk]

example : add 1 2 [[[1, 2]], [[3, 4]], [[5, 6]]] = [[(9 : ℚ), 12]] := by decide +kernel

end Visr.SparseGain
