import Verif.Crossfade.Spec
import Verif.Convolver.Props

/-!
# C15: crossfades between impulse responses
-/

set_option linter.unusedSectionVars false

namespace Visr.Crossfade
open Visr Visr.Convolver Visr.CircularBuffer

variable {K F : Type*} [Field K] [Field F] [Algebra K F]

theorem vectorFillAt_getD (l : List K) (start count : Nat) (v : K) (h : start + count = l.length) (i : Nat) :
    (Efl.vectorFillAt l start count v).getD i 0 =
      if i < start then l.getD i 0 else if i < start + count then v else 0 := by
  unfold Efl.vectorFillAt
  rw [List.drop_eq_nil_of_le (by omega), List.append_nil, List.getD_eq_getElem?_getD]
  have hl : (l.take start).length = start := by simp; omega
  by_cases h1 : i < start
  · rw [if_pos h1, List.getElem?_append_left (by omega), List.getElem?_take_of_lt h1, List.getD_eq_getElem?_getD]
  · rw [if_neg h1, List.getElem?_append_right (by omega), hl]
    by_cases h2 : i < start + count
    · rw [if_pos h2, List.getElem?_replicate_of_lt (by omega)]; rfl
    · rw [if_neg h2, List.getElem?_eq_none (by simp; omega)]; rfl

theorem rampRow_getD (T total : Nat) (h : T ≤ total) (a b : K) (i : Nat) (hi : i < total) :
    (rampRow T total a b).getD i 0 = a + weight T i * (b - a) := by
  have hlen : (Efl.vectorRamp (List.replicate total (0 : K)) T a b false true).length = total := by
    unfold Efl.vectorRamp
    by_cases h0 : T = 0
    · rw [if_pos h0, List.length_replicate]
    · rw [if_neg h0]
      by_cases h1 : T = 1
      · rw [if_pos h1]; simp
      · rw [if_neg h1]
        simp only [List.length_append, List.length_map, List.length_range, List.length_drop, List.length_replicate]
        omega
  unfold rampRow
  rw [vectorFillAt_getD _ _ _ _ (by omega)]
  unfold weight
  by_cases hT : T ≤ i
  · rw [if_neg (by omega), if_pos (by omega), if_pos hT]; ring
  · rw [if_pos (by omega), if_neg hT]
    unfold Efl.vectorRamp
    rw [if_neg (by omega)]
    by_cases h1 : T = 1
    · have hi0 : i = 0 := by omega
      subst h1; subst hi0
      cases total with
      | zero => omega
      | succ t => simp [List.replicate_succ]
    · rw [if_neg h1, List.getD_eq_getElem?_getD, List.getElem?_append_left (by simp; omega), List.getElem?_map,
        List.getElem?_range (by omega)]
      simp only [Option.map_some, Option.getD_some, Bool.false_eq_true, if_false, if_true]
      rw [show T + 1 - 0 - 1 = T by omega, show 1 + i = i + 1 by omega]
      ring

/-- Limits with twice the number of filters, as used inside. -/
def dims2 (d : Dims) : Dims := { d with entries := 2 * d.entries }

/-- Impulse responses of the two filter banks of the core convolver. -/
def banks (n : Nat) (current : Nat → Nat) (slots : Nat → Slot K) (f : Nat) : List K :=
  if f < n then (if current f = 0 then (slots f).new else (slots f).old)
  else if f < 2 * n then (if current (f - n) = 0 then (slots (f - n)).old else (slots (f - n)).new)
  else []

/-- The convolver represents the specification state. -/
structure Rep (d : Dims) (T : Nat) (s : Xf K F) (t : Sys K) : Prop where
  core : CoreRep s.core d.block (banks d.entries s.current t.slots) t.streams t.time
  inputs : s.core.inputs = d.inputs
  outputs : s.core.outputs = d.outputs
  entries : s.core.entries = 2 * d.entries
  maxFilters : s.maxFilters = d.entries
  maxLen : s.core.maxLen = d.maxLen
  parts : 0 < s.core.parts
  routes : RoutesRep (dims2 d) s.routes t.routes
  filters : ∀ e ∈ t.routes, e.filter < d.entries
  slotLen : ∀ f < d.entries, (t.slots f).old.length ≤ d.maxLen ∧ (t.slots f).new.length ≤ d.maxLen
  rampBlocks : 0 < s.rampBlocks
  rampEnd : T ≤ (s.rampBlocks - 1) * d.block
  ramp : ∀ f, s.rampBlock f < s.rampBlocks ∧ ((t.slots f).elapsed = s.rampBlock f * d.block ∨
    (s.rampBlock f = s.rampBlocks - 1 ∧ T ≤ (t.slots f).elapsed))
  row0 : ∀ i < s.rampBlocks * d.block, s.ramps0.getD i 0 = weight T i
  row1 : ∀ i < s.rampBlocks * d.block, s.ramps1.getD i 0 = 1 - weight T i

theorem setRoute_dims2 {d : Dims} (routes : List (Entry K)) (e : Entry K) (he : e.filter < d.entries) :
    setRoute (dims2 d) routes e = setRoute d routes e := by
  have : (dims2 d).admits e ↔ d.admits e := by
    unfold Dims.admits dims2
    simp only
    omega
  unfold setRoute
  by_cases hc : d.admits e ∧ (others e routes).length < d.maxRoutings
  · rw [if_pos hc, if_pos (⟨this.mpr hc.1, hc.2⟩ : (dims2 d).admits e ∧ (others e routes).length < (dims2 d).maxRoutings)]
  · rw [if_neg hc, if_neg (fun h : (dims2 d).admits e ∧ (others e routes).length < (dims2 d).maxRoutings =>
      hc ⟨this.mp h.1, h.2⟩)]

theorem setRoutes_dims2 {d : Dims} (es : List (Entry K)) : ∀ (routes : List (Entry K)), (∀ e ∈ es, e.filter < d.entries) →
    setRoutes (dims2 d) routes es = setRoutes d routes es := by
  induction es with
  | nil => intro _ _; rfl
  | cons e es ih =>
    intro routes h
    unfold setRoutes
    rw [setRoute_dims2 routes e (h e (by simp))]
    cases setRoute d routes e with
    | none => rfl
    | some r => exact ih r (fun x hx => h x (by simp [hx]))

theorem replaceRoutes_dims2 {d : Dims} (es : List (Entry K)) (h : ∀ e ∈ es, e.filter < d.entries) :
    replaceRoutes (dims2 d) es = replaceRoutes d es := by
  unfold replaceRoutes
  rw [setRoutes_dims2 es [] h]
  rfl

theorem setRoute_filters {d : Dims} {routes routes' : List (Entry K)} {e : Entry K} (hs : setRoute d routes e = some routes')
    (h : ∀ x ∈ routes, x.filter < d.entries) : ∀ x ∈ routes', x.filter < d.entries := by
  unfold setRoute at hs
  split_ifs at hs with hc
  injection hs with hs
  subst hs
  intro x hx
  rcases List.mem_cons.mp hx with rfl | hx
  · exact hc.1.2.2
  · exact h x (List.mem_filter.mp hx).1

theorem setRoutes_filters {d : Dims} (es : List (Entry K)) : ∀ {routes : List (Entry K)},
    (∀ x ∈ routes, x.filter < d.entries) → ∀ x ∈ (setRoutes d routes es).1, x.filter < d.entries := by
  induction es with
  | nil => intro routes h; exact h
  | cons e es ih =>
    intro routes h
    unfold setRoutes
    cases hs : setRoute d routes e with
    | none => exact h
    | some r => exact ih (setRoute_filters hs h)

theorem replaceRoutes_filters {d : Dims} (es : List (Entry K)) : ∀ x ∈ (replaceRoutes d es).1, x.filter < d.entries := by
  unfold replaceRoutes
  split_ifs
  · simp
  · exact setRoutes_filters es (by simp)

/-! ### Filters -/

theorem banks_switch (n : Nat) (current : Nat → Nat) (slots : Nat → Slot K) (idx : Nat) (hidx : idx < n) (ir : List K)
    (el : Nat → Nat) (newSet newIdx : Nat) (hset : newSet = if current idx = 0 then 1 else 0)
    (hnew : newIdx = if newSet = 0 then idx else idx + n) :
    banks n (fun f => if f = idx then newSet else current f)
      (fun f => if f = idx then ⟨(slots f).new, ir, el f⟩ else slots f) =
    fun f => if f = newIdx then ir else banks n current slots f := by
  funext f
  unfold banks
  by_cases hc : current idx = 0
  · rw [if_pos hc] at hset
    subst hset
    rw [if_neg (by omega)] at hnew
    subst hnew
    by_cases hf : f < n
    · rw [if_pos hf, if_pos hf, if_neg (show ¬ f = idx + n by omega)]
      by_cases hfi : f = idx
      · subst hfi; simp [hc]
      · simp [hfi]
    · rw [if_neg hf, if_neg hf]
      by_cases hf2 : f < 2 * n
      · rw [if_pos hf2, if_pos hf2]
        by_cases hfi : f - n = idx
        · have : f = idx + n := by omega
          simp [this]
        · have : ¬ f = idx + n := by omega
          simp [hfi, this]
      · rw [if_neg hf2, if_neg hf2, if_neg (by omega)]
  · rw [if_neg hc] at hset
    subst hset
    rw [if_pos rfl] at hnew
    subst hnew
    by_cases hf : f < n
    · rw [if_pos hf, if_pos hf]
      by_cases hfi : f = newIdx
      · subst hfi; simp
      · simp [hfi]
    · rw [if_neg hf, if_neg hf, if_neg (show ¬ f = newIdx by omega)]
      by_cases hf2 : f < 2 * n
      · rw [if_pos hf2, if_pos hf2]
        by_cases hfi : f - n = newIdx
        · simp [hfi, hc]
        · simp [hfi]
      · rw [if_neg hf2, if_neg hf2]

theorem rep_switch {d : Dims} {T : Nat} {s : Xf K F} {t : Sys K} (hr : Rep d T s t) (ir : List K) (idx : Nat)
    (hidx : idx < d.entries) (hir : ir.length ≤ d.maxLen) (start : Bool) (filt : Nat → Nat → F) (newSet newIdx : Nat)
    (hset : newSet = if s.current idx = 0 then 1 else 0) (hnew : newIdx = if newSet = 0 then idx else idx + d.entries)
    (hcore : CoreRep { s.core with filt := filt } d.block
      (fun f => if f = newIdx then ir else banks d.entries s.current t.slots f) t.streams t.time) :
    Rep d T (s.switch { s.core with filt := filt } idx newSet start) (t.setFilter ir idx start) := by
  refine ⟨?_, hr.inputs, hr.outputs, hr.entries, hr.maxFilters, hr.maxLen, hr.parts, hr.routes, hr.filters, ?_,
    hr.rampBlocks, hr.rampEnd, ?_, hr.row0, hr.row1⟩
  · have := banks_switch d.entries s.current t.slots idx hidx ir
      (fun f => if start then 0 else (t.slots f).elapsed) newSet newIdx hset hnew
    show CoreRep _ d.block (banks d.entries (fun f => if f = idx then newSet else s.current f)
      (fun f => if f = idx then ⟨(t.slots f).new, ir, if start then 0 else (t.slots f).elapsed⟩ else t.slots f)) _ _
    rw [this]
    exact hcore
  · intro f hf
    show (if f = idx then (⟨(t.slots f).new, ir, if start then 0 else (t.slots f).elapsed⟩ : Slot K) else t.slots f).old.length
      ≤ _ ∧ (if f = idx then (⟨(t.slots f).new, ir, if start then 0 else (t.slots f).elapsed⟩ : Slot K)
        else t.slots f).new.length ≤ _
    by_cases hfi : f = idx
    · rw [if_pos hfi]; exact ⟨(hr.slotLen f hf).2, hir⟩
    · rw [if_neg hfi]; exact hr.slotLen f hf
  · intro f
    have h := hr.ramp f
    show (if f = idx ∧ start then 0 else s.rampBlock f) < s.rampBlocks ∧ _
    have hel : ((t.setFilter ir idx start).slots f).elapsed = if f = idx ∧ start then 0 else (t.slots f).elapsed := by
      show (if f = idx then (⟨(t.slots f).new, ir, if start then 0 else (t.slots f).elapsed⟩ : Slot K)
        else t.slots f).elapsed = _
      by_cases hfi : f = idx
      · cases start <;> simp [hfi]
      · simp [hfi]
    rw [hel]
    show _ ∧ ((if f = idx ∧ start then 0 else (t.slots f).elapsed) = (if f = idx ∧ start then 0 else s.rampBlock f) * d.block ∨
      ((if f = idx ∧ start then 0 else s.rampBlock f) = s.rampBlocks - 1 ∧ _))
    by_cases hc : f = idx ∧ start
    · simp only [if_pos hc]
      exact ⟨hr.rampBlocks, Or.inl (by simp)⟩
    · simp only [if_neg hc]
      exact h

theorem rep_setImpulseResponse {d : Dims} {T : Nat} {s : Xf K F} {t : Sys K} (hr : Rep d T s t) (ir : List K) (idx : Nat)
    (hidx : idx < d.entries) (start : Bool) :
    (¬ ir.length ≤ d.maxLen → s.setImpulseResponse ir idx start = .throw .invalidArgument) ∧
    (ir.length ≤ d.maxLen → ∃ s', s.setImpulseResponse ir idx start = .ok s' ∧ Rep d T s' (t.setFilter ir idx start)) := by
  unfold Xf.setImpulseResponse
  rw [if_neg (by rw [hr.maxFilters]; omega)]
  obtain ⟨newSet, hset⟩ : ∃ n, n = if s.current idx = 0 then 1 else 0 := ⟨_, rfl⟩
  obtain ⟨newIdx, hnew⟩ : ∃ n, n = if newSet = 0 then idx else idx + d.entries := ⟨_, rfl⟩
  simp only [hr.maxFilters, ← hset, ← hnew]
  have hlt : newIdx < s.core.entries := by rw [hr.entries, hnew]; split_ifs <;> omega
  obtain ⟨h1, h2⟩ := coreRep_setImpulseResponse hr.core ir newIdx
  constructor
  · intro hn
    rw [h1 (by rw [hr.maxLen]; exact fun h => hn h.2)]
  · intro hl
    obtain ⟨row, g1, g2⟩ := h2 ⟨hlt, by rw [hr.maxLen]; exact hl⟩
    rw [g1]
    exact ⟨_, rfl, rep_switch hr ir idx hidx hl start _ newSet newIdx hset hnew g2⟩

theorem rep_setTransformed {d : Dims} {T : Nat} {s : Xf K F} {t : Sys K} (hr : Rep d T s t) (ir : List K)
    (buffer : Nat → F) (idx : Nat) (hidx : idx < d.entries) (start : Bool) (hl : ir.length ≤ d.maxLen) :
    ∃ fd s', s.core.transformImpulseResponse ir buffer = .ok fd ∧ s.setTransformedFilter fd idx start = .ok s' ∧
      Rep d T s' (t.setFilter ir idx start) := by
  unfold Core.transformImpulseResponse
  rw [if_neg (by rw [hr.maxLen]; omega)]
  refine ⟨transformLoop s.core ir buffer s.core.parts, ?_⟩
  obtain ⟨newSet, hset⟩ : ∃ n, n = if s.current idx = 0 then 1 else 0 := ⟨_, rfl⟩
  obtain ⟨newIdx, hnew⟩ : ∃ n, n = if newSet = 0 then idx else idx + d.entries := ⟨_, rfl⟩
  have hlt : newIdx < s.core.entries := by rw [hr.entries, hnew]; split_ifs <;> omega
  unfold Xf.setTransformedFilter Core.setFilter
  rw [if_neg (by rw [hr.maxFilters]; omega)]
  simp only [hr.maxFilters, ← hset, ← hnew]
  rw [if_neg (by omega)]
  refine ⟨_, trivial, rfl, rep_switch hr ir idx hidx hl start _ newSet newIdx hset hnew ?_⟩
  refine coreRep_setFilt hr.core _ _ ?_ ?_
  · intro f hf
    by_cases hfi : f = newIdx
    · simp only [hfi, if_true]
      intro p hp k hk
      have hpad := hr.core.shape.padded
      have hb : p * s.core.padded + k < s.core.padded * s.core.parts := by
        have : (p + 1) * s.core.padded ≤ s.core.parts * s.core.padded := Nat.mul_le_mul_right _ hp
        rw [Nat.add_mul, Nat.one_mul] at this
        rw [Nat.mul_comm s.core.padded]
        omega
      beta_reduce
      rw [if_pos hb]
      exact transformLoop_holds hr.core.shape ir buffer s.core.parts p hp k hk
    · simp only [if_neg hfi]; exact hr.core.filt f hf
  · intro f
    by_cases hfi : f = newIdx
    · simp only [if_pos hfi]; rw [hr.maxLen]; exact hl
    · simp only [if_neg hfi]; exact hr.core.hlen f

/-! ### Outputs -/

theorem filter_block {c : Core K F} {L : Nat} {h xs : Nat → List K} {time : Nat} (hr : CoreRep c L h xs (time + L))
    (hp : 0 < c.parts) (i f : Nat) (hi : i < c.inputs) (hf : f < c.entries) (g : K) :
    ∃ X, c.processFilter i f g (fun _ => 0) false = .ok X ∧ ∀ n < L,
      (c.transformOutput X).getD n 0 = g * conv (h f) (xs i) (time + n) := by
  have hlaw := hr.shape.law
  unfold Core.processFilter
  rw [if_neg (by omega)]
  refine ⟨_, rfl, ?_⟩
  intro n hn
  unfold Core.transformOutput
  rw [hr.shape.dft, hr.shape.block, List.getD_eq_getElem?_getD, List.getElem?_map, List.getElem?_range (by omega)]
  simp only [Option.map_some, Option.getD_some]
  rw [← acc_conv hr i f hi hf hp n hn, ← hlaw.inv_smul _ _ _ (by omega)]
  apply hlaw.inv_congr _ _ _ _ (by omega)
  intro k hk
  rw [if_pos (by have := hr.shape.padded; omega)]
  rfl

theorem ramp_weight {d : Dims} {T : Nat} {s : Xf K F} {t : Sys K} (hr : Rep d T s t) (f i : Nat) (hi : i < d.block) :
    s.ramps0.getD (s.rampBlock f * d.block + i) 0 = weight T ((t.slots f).elapsed + i) ∧
    s.ramps1.getD (s.rampBlock f * d.block + i) 0 = 1 - weight T ((t.slots f).elapsed + i) := by
  obtain ⟨h1, h2⟩ := hr.ramp f
  have hlt : s.rampBlock f * d.block + i < s.rampBlocks * d.block := by
    have : (s.rampBlock f + 1) * d.block ≤ s.rampBlocks * d.block := Nat.mul_le_mul_right _ h1
    rw [Nat.add_mul, Nat.one_mul] at this
    omega
  rw [hr.row0 _ hlt, hr.row1 _ hlt]
  rcases h2 with h2 | ⟨h2, h3⟩
  · rw [h2]; exact ⟨rfl, rfl⟩
  · have hw1 : (weight T (s.rampBlock f * d.block + i) : K) = 1 := by
      have := hr.rampEnd
      rw [h2]; unfold weight; rw [if_pos (by omega)]
    have hw2 : (weight T ((t.slots f).elapsed + i) : K) = 1 := by unfold weight; rw [if_pos (by omega)]
    rw [hw1, hw2]; exact ⟨rfl, rfl⟩

theorem routeLoop_ok {d : Dims} {T : Nat} {s : Xf K F} {t : Sys K} (hr : Rep d T s t) (time : Nat)
    (ht : t.time = time + d.block) (es : List (Entry K)) : ∀ (out : Nat → Nat → K),
    (∀ e ∈ es, e.input < d.inputs ∧ e.filter < d.entries) →
    ∃ out', s.routeLoop out es = .ok out' ∧ ∀ o, ∀ n < d.block, out' o n = out o n +
      ((es.filter fun e => e.output = o).map fun e =>
        e.gain * ((1 - weight T ((t.slots e.filter).elapsed + n)) *
            conv (t.slots e.filter).old (t.streams e.input) (time + n) +
          weight T ((t.slots e.filter).elapsed + n) *
            conv (t.slots e.filter).new (t.streams e.input) (time + n))).sum := by
  induction es with
  | nil => intro out _; exact ⟨out, rfl, by simp⟩
  | cons e es ih =>
    intro out hes
    obtain ⟨hi, hf⟩ := hes e (by simp)
    have hcr := hr.core
    rw [ht] at hcr
    have hb1 : banks d.entries s.current t.slots (if s.current e.filter = 0 then e.filter else e.filter + d.entries) =
        (t.slots e.filter).new := by
      unfold banks
      by_cases hc : s.current e.filter = 0
      · rw [if_pos hc, if_pos hf, if_pos hc]
      · rw [if_neg hc, if_neg (by omega), if_pos (by omega), show e.filter + d.entries - d.entries = e.filter by omega,
          if_neg hc]
    have hb2 : banks d.entries s.current t.slots (if s.current e.filter = 0 then e.filter + d.entries else e.filter) =
        (t.slots e.filter).old := by
      unfold banks
      by_cases hc : s.current e.filter = 0
      · rw [if_pos hc, if_neg (by omega), if_pos (by omega), show e.filter + d.entries - d.entries = e.filter by omega,
          if_pos hc]
      · rw [if_neg hc, if_pos hf, if_neg hc]
    obtain ⟨X0, x1, x2⟩ := filter_block hcr hr.parts e.input
      (if s.current e.filter = 0 then e.filter else e.filter + d.entries) (by rw [hr.inputs]; exact hi)
      (by rw [hr.entries]; split_ifs <;> omega) e.gain
    obtain ⟨X1, y1, y2⟩ := filter_block hcr hr.parts e.input
      (if s.current e.filter = 0 then e.filter + d.entries else e.filter) (by rw [hr.inputs]; exact hi)
      (by rw [hr.entries]; split_ifs <;> omega) e.gain
    rw [hb1] at x2
    rw [hb2] at y2
    unfold Xf.routeLoop Xf.routeStep
    rw [if_neg (by rw [hr.maxFilters]; omega)]
    simp only [hr.maxFilters, x1, y1]
    obtain ⟨out', h1, h2⟩ := ih _ (fun x hx => hes x (by simp [hx]))
    refine ⟨out', h1, ?_⟩
    intro o n hn
    rw [h2 o n hn]
    by_cases ho : e.output = o
    · subst ho
      rw [if_pos rfl, List.filter_cons_of_pos (by simp), List.map_cons, List.sum_cons]
      rw [x2 n hn, y2 n hn, hr.core.shape.block, (ramp_weight hr e.filter n hn).1, (ramp_weight hr e.filter n hn).2]
      ring
    · rw [if_neg (Ne.symm ho), List.filter_cons_of_neg (by simpa using ho)]

theorem step_ok {d : Dims} {T : Nat} {s : Xf K F} {t : Sys K} (hr : Rep d T s t) (op : Op K F) (hop : OpOK d op) :
    Rep d T (s.step op).1 (Sys.step d T t op).1 ∧ (s.step op).2 = (Sys.step d T t op).2 := by
  cases op with
  | setImpulseResponse ir idx start =>
    obtain ⟨h1, h2⟩ := rep_setImpulseResponse hr ir idx hop start
    simp only [Xf.step, Sys.step]
    by_cases hc : ir.length ≤ d.maxLen
    · obtain ⟨s', g1, g2⟩ := h2 hc
      rw [g1, if_pos hc]
      exact ⟨g2, rfl⟩
    · rw [h1 hc, if_neg hc]
      exact ⟨hr, rfl⟩
  | setTransformed ir buffer idx start =>
    simp only [Xf.step, Sys.step]
    by_cases hc : ir.length ≤ d.maxLen
    · obtain ⟨fd, s', g1, g2, g3⟩ := rep_setTransformed hr ir buffer idx hop start hc
      rw [g1, if_pos hc]
      simp only [g2]
      exact ⟨g3, trivial⟩
    · have : s.core.transformImpulseResponse ir buffer = .throw .invalidArgument := by
        unfold Core.transformImpulseResponse
        rw [if_pos (by rw [hr.maxLen]; omega)]
      rw [this, if_neg hc]
      exact ⟨hr, rfl⟩
  | initFilters rows cols m => exact absurd hop id
  | clearFilters =>
    have hb : banks d.entries s.current (fun f => (⟨[], [], (t.slots f).elapsed⟩ : Slot K)) = fun _ => [] := by
      funext f; unfold banks; split_ifs <;> rfl
    refine ⟨⟨?_, hr.inputs, hr.outputs, hr.entries, hr.maxFilters, hr.maxLen, hr.parts, hr.routes, hr.filters, ?_,
      hr.rampBlocks, hr.rampEnd, hr.ramp, hr.row0, hr.row1⟩, rfl⟩
    · show CoreRep _ _ (banks d.entries s.current (fun f => (⟨[], [], (t.slots f).elapsed⟩ : Slot K))) _ _
      rw [hb]; exact coreRep_clear hr.core
    · intro f _
      exact ⟨Nat.zero_le _, Nat.zero_le _⟩
  | setRouting e =>
    obtain ⟨h1, h2⟩ := routesRep_set hr.routes e
    rw [setRoute_dims2 t.routes e hop] at h1 h2
    simp only [Xf.step, Sys.step]
    cases hs : setRoute d t.routes e with
    | none => rw [h1 hs]; exact ⟨hr, rfl⟩
    | some routes' =>
      obtain ⟨r', g1, g2⟩ := h2 routes' hs
      rw [g1]
      exact ⟨⟨hr.core, hr.inputs, hr.outputs, hr.entries, hr.maxFilters, hr.maxLen, hr.parts, g2,
        setRoute_filters hs hr.filters, hr.slotLen, hr.rampBlocks, hr.rampEnd, hr.ramp, hr.row0, hr.row1⟩, rfl⟩
  | removeRouting i o => exact absurd hop id
  | clearRoutings =>
    exact ⟨⟨hr.core, hr.inputs, hr.outputs, hr.entries, hr.maxFilters, hr.maxLen, hr.parts, routesRep_clear hr.routes,
      by simp [Sys.step], hr.slotLen, hr.rampBlocks, hr.rampEnd, hr.ramp, hr.row0, hr.row1⟩, rfl⟩
  | initRoutings es =>
    obtain ⟨h1, h2⟩ := routesRep_init hr.routes es
    rw [replaceRoutes_dims2 es hop] at h1 h2
    refine ⟨⟨hr.core, hr.inputs, hr.outputs, hr.entries, hr.maxFilters, hr.maxLen, hr.parts, h1,
      replaceRoutes_filters es, hr.slotLen, hr.rampBlocks, hr.rampEnd, hr.ramp, hr.row0, hr.row1⟩, ?_⟩
    simp only [Xf.step, Sys.step, h2]
  | process data =>
    obtain ⟨c', h1, h2, h3, h4, h5, h6, h7⟩ := coreRep_processInputs hr.core hr.parts data
    simp only [Xf.step, Sys.step, h1]
    have hr1 : Rep d T { s with core := c' } { t with
        streams := fun ch => t.streams ch ++ (List.range d.block).map (data ch), time := t.time + d.block } :=
      ⟨h2, h3.trans hr.inputs, h4.trans hr.outputs, h5.trans hr.entries, hr.maxFilters, h6.trans hr.maxLen,
        by show 0 < c'.parts; rw [h7]; exact hr.parts, hr.routes, hr.filters, hr.slotLen, hr.rampBlocks, hr.rampEnd,
        hr.ramp, hr.row0, hr.row1⟩
    obtain ⟨out, g1, g2⟩ := routeLoop_ok hr1 t.time rfl s.routes.table (fun _ _ => 0) (by
      intro e he
      have hm := hr.routes.perm.mem_iff.mp he
      exact ⟨(hr.routes.admits e hm).1, hr.filters e hm⟩)
    unfold Xf.processOutputs
    simp only [g1]
    refine ⟨⟨hr1.core, hr1.inputs, hr1.outputs, hr1.entries, hr1.maxFilters, hr1.maxLen, hr1.parts, hr1.routes,
      hr1.filters, hr1.slotLen, hr1.rampBlocks, hr1.rampEnd, ?_, hr1.row0, hr1.row1⟩, ?_⟩
    · intro f
      obtain ⟨k1, k2⟩ := hr.ramp f
      have hpos := hr.rampBlocks
      have hend := hr.rampEnd
      show min (s.rampBlock f + 1) (s.rampBlocks - 1) < s.rampBlocks ∧ ((t.slots f).elapsed + d.block =
        min (s.rampBlock f + 1) (s.rampBlocks - 1) * d.block ∨ (min (s.rampBlock f + 1) (s.rampBlocks - 1) =
          s.rampBlocks - 1 ∧ T ≤ (t.slots f).elapsed + d.block))
      refine ⟨by omega, ?_⟩
      rcases k2 with k2 | ⟨k2, k3⟩
      · by_cases hlast : s.rampBlock f + 1 < s.rampBlocks
        · left
          rw [k2, Nat.min_eq_left (by omega), Nat.add_mul, Nat.one_mul]
        · right
          have : s.rampBlock f = s.rampBlocks - 1 := by omega
          rw [this] at k2
          exact ⟨by omega, by omega⟩
      · right
        exact ⟨by omega, by omega⟩
    · simp only [Outcome.map]
      rw [h4, hr.outputs, h2.shape.block]
      refine congrArg (fun l => Outcome.ok (Res.signals l)) (List.map_congr_left ?_)
      intro o _
      apply List.map_congr_left
      intro i hi
      have hi := List.mem_range.mp hi
      rw [g2 o i hi, zero_add]
      simp only [Sys.sample]
      exact ((hr.routes.perm.filter _).map _).sum_eq

theorem setImpulseResponse_entries {c c' : Core K F} {ir : List K} {i : Nat} (h : c.setImpulseResponse ir i = .ok c') :
    c'.entries = c.entries := by
  unfold Core.setImpulseResponse at h
  split_ifs at h
  unfold Core.transformImpulseResponse at h
  split_ifs at h
  injection h with h
  rw [← h]

theorem initLoop_entries {cols : Nat} {m : Nat → Nat → K} (n : Nat) {c c' : Core K F} (h : initLoop c cols m n = .ok c') :
    c'.entries = c.entries := by
  induction n generalizing c' with
  | zero => injection h with h; rw [h]
  | succ n ih =>
    unfold initLoop at h
    cases hl : initLoop c cols m n with
    | ok c1 => rw [hl] at h; exact (setImpulseResponse_entries h).trans (ih hl)
    | throw e => rw [hl] at h; cases h
    | ub => rw [hl] at h; cases h

theorem create_entries {inputs outputs block maxLen entries rows cols align : Nat} {m : Nat → Nat → K} {fft : Fft K F}
    {c : Core K F} (h : Core.create inputs outputs block maxLen entries rows cols m align fft = .ok c) :
    c.entries = entries := by
  unfold Core.create at h
  split_ifs at h
  unfold Core.initFilters at h
  simp only at h
  by_cases h1 : rows > entries
  · rw [if_pos h1] at h; cases h
  · rw [if_neg h1] at h
    by_cases h2 : cols > maxLen
    · rw [if_pos h2] at h; cases h
    · rw [if_neg h2] at h
      revert h
      generalize hc0 : Core.clearFilters (K := K) (F := F) _ = c0
      intro h
      have he : c0.entries = entries := by rw [← hc0]; rfl
      cases hl : initLoop c0 cols m rows with
      | ok c1 =>
        rw [hl] at h
        injection h with h
        rw [← h]
        exact (initLoop_entries _ hl).trans he
      | throw e => rw [hl] at h; cases h
      | ub => rw [hl] at h; cases h

theorem create_ok (d : Dims) (T : Nat) (hb : 0 < d.block) (hm : 0 < d.maxLen) {fft : Fft K F} (hlaw : Law d.block fft)
    (routings : List (Entry K)) (hrt : ∀ e ∈ routings, e.filter < d.entries) (rows cols : Nat) (hrows : rows ≤ d.entries)
    (m : Nat → Nat → K) (align : Nat) {s : Xf K F}
    (hs : Xf.create d.inputs d.outputs d.block d.maxLen d.maxRoutings d.entries T routings rows cols m align fft = .ok s) :
    Rep d T s (Sys.init d T routings rows cols m) := by
  -- the core and the routing table are those of a multichannel convolver
  obtain ⟨m1, m2⟩ := Convolver.create_ok (dims2 d) hb hm hlaw routings rows cols m align
  unfold Xf.create at hs
  cases hcore : Core.create (F := F) d.inputs d.outputs d.block d.maxLen (2 * d.entries) rows cols m align fft with
  | ok c =>
    have hent := create_entries hcore
    rw [hcore] at hs
    simp only [hent] at hs
    have hmul : Multi.create (dims2 d).inputs (dims2 d).outputs (dims2 d).block (dims2 d).maxLen (dims2 d).maxRoutings
        (dims2 d).entries routings rows cols m align fft =
        match Routes.initTable (⟨d.inputs, d.outputs, 2 * d.entries, d.maxRoutings, []⟩ : Routes K) routings with
        | (r, .ok _) => .ok ⟨c, r⟩
        | (_, .throw e) => .throw e
        | (_, .ub) => .ub := by
      unfold Multi.create
      rw [show Core.create (F := F) (dims2 d).inputs (dims2 d).outputs (dims2 d).block (dims2 d).maxLen (dims2 d).entries rows
        cols m align fft = .ok c from hcore]
      rfl
    revert hs hmul
    generalize Routes.initTable (⟨d.inputs, d.outputs, 2 * d.entries, d.maxRoutings, []⟩ : Routes K) routings = R
    intro hs hmul
    obtain ⟨r, o⟩ := R
    cases o with
    | ok u =>
      simp only at hs hmul
      injection hs with hs
      subst hs
      have hc : rows ≤ (dims2 d).entries ∧ cols ≤ (dims2 d).maxLen ∧ (replaceRoutes (dims2 d) routings).2 = .ok () := by
        by_contra hn
        rw [m2 hn] at hmul
        cases hmul
      obtain ⟨s', g1, g2⟩ := m1 hc
      rw [hmul] at g1
      injection g1 with g1
      subst g1
      have hrep := replaceRoutes_dims2 routings hrt
      refine ⟨?_, g2.inputs, g2.outputs, g2.entries, rfl, g2.maxLen, g2.parts, ?_, ?_, ?_, Nat.succ_pos _, ?_, ?_, ?_,
        ?_⟩
      · have hbk : banks d.entries (fun _ => 0) (Sys.init d T routings rows cols m).slots = rowFilters rows cols m := by
          funext f
          simp only [banks, Sys.init, rowFilters, if_true]
          by_cases h1 : f < d.entries
          · rw [if_pos h1]
          · rw [if_neg h1, if_neg (show ¬ f < rows by omega)]; split_ifs <;> rfl
        show CoreRep c d.block (banks d.entries (fun _ => 0) (Sys.init d T routings rows cols m).slots) _ _
        rw [hbk]; exact g2.core
      · have := g2.routes
        simp only [Convolver.Sys.init] at this
        rw [hrep] at this
        exact this
      · exact replaceRoutes_filters routings
      · intro f _
        refine ⟨Nat.zero_le _, ?_⟩
        have := g2.core.hlen f
        rw [g2.maxLen] at this
        exact this
      · show T ≤ ((T + d.block - 1) / d.block + 1 - 1) * d.block
        have h1 := Nat.div_add_mod (T + d.block - 1) d.block
        have h2 := Nat.mod_lt (T + d.block - 1) hb
        rw [Nat.mul_comm] at h1
        rw [Nat.add_sub_cancel]
        omega
      · intro f
        exact ⟨by show (T + d.block - 1) / d.block + 1 - 1 < (T + d.block - 1) / d.block + 1; exact Nat.lt_succ_self _,
          Or.inr ⟨rfl, le_refl _⟩⟩
      · intro i hi
        have hi : i < ((T + d.block - 1) / d.block + 1) * d.block := hi
        have hT : T ≤ ((T + d.block - 1) / d.block + 1) * d.block := by
          have h1 := Nat.div_add_mod (T + d.block - 1) d.block
          have h2 := Nat.mod_lt (T + d.block - 1) hb
          rw [Nat.mul_comm] at h1
          rw [Nat.add_mul]; omega
        show (rampRow T (d.block * ((T + d.block - 1) / d.block + 1)) 0 1).getD i 0 = _
        rw [Nat.mul_comm d.block, rampRow_getD _ _ hT _ _ _ hi]; ring
      · intro i hi
        have hi : i < ((T + d.block - 1) / d.block + 1) * d.block := hi
        have hT : T ≤ ((T + d.block - 1) / d.block + 1) * d.block := by
          have h1 := Nat.div_add_mod (T + d.block - 1) d.block
          have h2 := Nat.mod_lt (T + d.block - 1) hb
          rw [Nat.mul_comm] at h1
          rw [Nat.add_mul]; omega
        show (rampRow T (d.block * ((T + d.block - 1) / d.block + 1)) 1 0).getD i 0 = _
        rw [Nat.mul_comm d.block, rampRow_getD _ _ hT _ _ _ hi]; ring
    | throw e => simp at hs
    | ub => simp at hs
  | throw e => rw [hcore] at hs; simp at hs
  | ub => rw [hcore] at hs; simp at hs

/-! ### Property theorems -/

/-- The stream theorem for every transform that satisfies the convolution law. -/
theorem crossfade_stream_law {d : Dims} {T : Nat} (hb : 0 < d.block) (hm : 0 < d.maxLen) {fft : Fft K F}
    (hlaw : Law d.block fft) (routings : List (Entry K)) (hrt : ∀ e ∈ routings, e.filter < d.entries) (rows cols : Nat)
    (hrows : rows ≤ d.entries) (m : Nat → Nat → K) (align : Nat) {s : Xf K F}
    (hs : Xf.create d.inputs d.outputs d.block d.maxLen d.maxRoutings d.entries T routings rows cols m align fft = .ok s)
    (past : List (Op K F)) (op : Op K F) (hpast : ∀ o ∈ past, OpOK d o) (hop : OpOK d op) :
    ((final Xf.step s past).step op).2 =
      (Sys.step d T (final (Sys.step d T) (Sys.init d T routings rows cols m) past) op).2 := by
  have key : ∀ (past : List (Op K F)) (s : Xf K F) (t : Sys K), Rep d T s t → (∀ o ∈ past, OpOK d o) →
      Rep d T (final Xf.step s past) (final (Sys.step d T) t past) := by
    intro past
    induction past with
    | nil => intro s t h _; simpa using h
    | cons o past ih =>
      intro s t h ho
      rw [final_cons, final_cons]
      exact ih _ _ (step_ok h o (ho o (by simp))).1 (fun x hx => ho x (by simp [hx]))
  exact (step_ok (key past s _ (create_ok d T hb hm hlaw routings hrt rows cols hrows m align hs) hpast) op hop).2

/-- **C15.** Real signals, with a library that computes the discrete Fourier transform: after any history of calls, every call
of a crossfading convolver returns what the specification returns. In particular sample `i` of a block contains, for every
routing, `gain * ((1 - r) * old + r * new)`, where `old` and `new` are the convolutions of the complete input signal with the
previous and the current impulse response of the slot and `r` rises linearly over the transition. -/
theorem crossfade_stream {d : Dims} {T : Nat} (hb : 0 < d.block) (hm : 0 < d.maxLen) {fft : Fft ℝ ℂ}
    (hfft : IsDft d.block fft) (routings : List (Entry ℝ)) (hrt : ∀ e ∈ routings, e.filter < d.entries) (rows cols : Nat)
    (hrows : rows ≤ d.entries) (m : Nat → Nat → ℝ) (align : Nat) {s : Xf ℝ ℂ}
    (hs : Xf.create d.inputs d.outputs d.block d.maxLen d.maxRoutings d.entries T routings rows cols m align fft = .ok s)
    (past : List (Op ℝ ℂ)) (op : Op ℝ ℂ) (hpast : ∀ o ∈ past, OpOK d o) (hop : OpOK d op) :
    ((final Xf.step s past).step op).2 =
      (Sys.step d T (final (Sys.step d T) (Sys.init d T routings rows cols m) past) op).2 :=
  crossfade_stream_law hb hm (isDft_law hb hfft) routings hrt rows cols hrows m align hs past op hpast hop

/-- **C15, the weights.** They are between 0 and 1, do not decrease, and have a step of `1/T`. -/
theorem weight_facts (T e : Nat) :
    (0 : ℝ) ≤ weight T e ∧ (weight T e : ℝ) ≤ 1 ∧ (weight T e : ℝ) ≤ weight T (e + 1) ∧
    (e + 1 < T → (weight T (e + 1) : ℝ) - weight T e = 1 / T) ∧ (T ≤ e + 1 → (weight T e : ℝ) = 1) := by
  have hc : ∀ e, ¬ T ≤ e → (weight T e : ℝ) = ((e : ℝ) + 1) / T := by
    intro e h; unfold weight; rw [if_neg h]; push_cast; rfl
  have h1 : ∀ e, T ≤ e → (weight T e : ℝ) = 1 := by intro e h; unfold weight; rw [if_pos h]
  have hlast : T ≤ e + 1 → (weight T e : ℝ) = 1 := by
    intro h
    by_cases he : T ≤ e
    · exact h1 e he
    · rw [hc e he]
      have : T = e + 1 := by omega
      rw [this]; push_cast
      have : ((e : ℝ) + 1) ≠ 0 := by positivity
      exact div_self this
  have hle : ∀ e, (0 : ℝ) ≤ weight T e ∧ (weight T e : ℝ) ≤ 1 := by
    intro e
    by_cases he : T ≤ e
    · rw [h1 e he]; exact ⟨zero_le_one, le_refl _⟩
    · rw [hc e he]
      have hT : (0 : ℝ) < T := by exact_mod_cast (by omega : 0 < T)
      have hT2 : (e : ℝ) + 1 ≤ T := by exact_mod_cast (by omega : e + 1 ≤ T)
      exact ⟨by positivity, (div_le_one hT).mpr hT2⟩
  refine ⟨(hle e).1, (hle e).2, ?_, ?_, hlast⟩
  · by_cases he : T ≤ e + 1
    · rw [h1 (e + 1) he]; exact (hle e).2
    · rw [hc e (by omega), hc (e + 1) he]
      have hT : (0 : ℝ) < T := by exact_mod_cast (by omega : 0 < T)
      apply div_le_div_of_nonneg_right _ hT.le
      push_cast; linarith
  · intro h
    rw [hc e (by omega), hc (e + 1) (by omega)]
    have hT : (T : ℝ) ≠ 0 := by exact_mod_cast (by omega : T ≠ 0)
    push_cast
    field_simp
    ring

/-- **C15, finding.** Setting a filter with an index not below the maximum number of filters is undefined behaviour instead of
an error: a vector is accessed before the check. -/
theorem setImpulseResponse_index_ub (s : Xf K F) (ir : List K) (idx : Nat) (start : Bool) (h : s.maxFilters ≤ idx) :
    (s.step (.setImpulseResponse ir idx start)).2 = .ub := by
  simp [Xf.step, Xf.setImpulseResponse, h]

/-- **C15, finding.** A routing with a filter index in the second half of the internal filters is accepted, but processing the
next block is undefined behaviour. -/
theorem routing_index_ub {d : Dims} {T : Nat} (hb : 0 < d.block) (hm : 0 < d.maxLen) {fft : Fft K F} (hlaw : Law d.block fft)
    (hi : 0 < d.inputs) (ho : 0 < d.outputs) (hcap : 0 < d.maxRoutings) (hn : 0 < d.entries) (align : Nat) {s : Xf K F}
    (hs : Xf.create d.inputs d.outputs d.block d.maxLen d.maxRoutings d.entries T [] 0 0 (fun _ _ => 0) align fft = .ok s)
    (data : Nat → Nat → K) :
    (s.step (.setRouting ⟨0, 0, d.entries, 1⟩)).2 = .ok .unit ∧
    ((s.step (.setRouting ⟨0, 0, d.entries, 1⟩)).1.step (.process data)).2 = .ub := by
  have hr := create_ok d T hb hm hlaw [] (by simp) 0 0 (by omega) (fun _ _ => 0) align hs
  have hroutes : (Sys.init d T [] 0 0 (fun _ _ => (0 : K))).routes = [] := by
    simp [Sys.init, replaceRoutes, setRoutes]
  have hrr := hr.routes
  rw [hroutes] at hrr
  have hset : setRoute (dims2 d) [] (⟨0, 0, d.entries, 1⟩ : Entry K) = some [⟨0, 0, d.entries, 1⟩] := by
    unfold setRoute others
    rw [if_pos]
    · rfl
    · refine ⟨⟨hi, ho, ?_⟩, hcap⟩
      show d.entries < 2 * d.entries
      omega
  obtain ⟨r', g1, g2⟩ := (routesRep_set hrr _).2 _ hset
  have htab : r'.table = [⟨0, 0, d.entries, 1⟩] := List.perm_singleton.mp g2.perm
  simp only [Xf.step, g1]
  refine ⟨rfl, ?_⟩
  obtain ⟨c', h1, -⟩ := coreRep_processInputs hr.core hr.parts data
  rw [h1]
  simp [Xf.processOutputs, htab, Xf.routeLoop, Xf.routeStep, hr.maxFilters, Outcome.map]

/-- The output samples of a call, for the finding below. -/
def samplesOf : Outcome (Res ℚ) → Option (List (List ℚ))
  | .ok (.signals l) => some l
  | _ => none

/-- **C15, finding.** `initFilters` on a slot whose filter has been exchanged before mutes it: here the slot is initialised to
the filter `5` and the input is 1, but the output is 0. -/
theorem initFilters_mutes :
    ∃ s, Xf.create 1 1 1 1 1 1 0 [⟨0, 0, 0, (1 : ℚ)⟩] 1 1 (fun _ _ => 2) 0 fft2 = .ok s ∧
      samplesOf ((final Xf.step s [.setImpulseResponse [4] 0 true, .initFilters 1 1 fun _ _ => 5]).step
        (.process fun _ _ => 1)).2 = some [[0]] := by
  refine ⟨_, rfl, ?_⟩
  decide +kernel

/-- A transition of two samples with blocks of one sample from the filter `2` to the filter `4`, input `1, 1, 1`: outputs
`2, 3, 4`; over the rationals with a transform of length 2. -/
example : ∃ s, Xf.create 1 1 1 1 1 1 2 [⟨0, 0, 0, (1 : ℚ)⟩] 1 1 (fun _ _ => 2) 0 fft2 = .ok s ∧
    (s.step (.process fun _ _ => 1)).2 = .ok (.signals [[2]]) ∧
    ((final Xf.step s [.process fun _ _ => 1, .setImpulseResponse [4] 0 true]).step (.process fun _ _ => 1)).2 =
      .ok (.signals [[3]]) ∧
    ((final Xf.step s [.process fun _ _ => 1, .setImpulseResponse [4] 0 true, .process fun _ _ => 1]).step
      (.process fun _ _ => 1)).2 = .ok (.signals [[4]]) := by
  refine ⟨_, rfl, ?_, ?_, ?_⟩
  · exact (crossfade_stream_law (d := ⟨1, 1, 1, 1, 1, 1⟩) (T := 2) (by decide) (by decide) fft2_law
      [⟨0, 0, 0, (1 : ℚ)⟩] (by simp) 1 1 (by decide) (fun _ _ => 2) 0 rfl [] (.process fun _ _ => 1) (by simp) trivial).trans
      (by
        simp [final, run, Sys.step, Sys.init, replaceRoutes, setRoutes, setRoute, Dims.admits, others, Sys.sample, conv,
          rowFilters, weight])
  · exact (crossfade_stream_law (d := ⟨1, 1, 1, 1, 1, 1⟩) (T := 2) (by decide) (by decide) fft2_law
      [⟨0, 0, 0, (1 : ℚ)⟩] (by simp) 1 1 (by decide) (fun _ _ => 2) 0 rfl
      [.process fun _ _ => 1, .setImpulseResponse [4] 0 true] (.process fun _ _ => 1) (by simp [OpOK]) trivial).trans
      (by
        simp [final, run, Sys.step, Sys.init, replaceRoutes, setRoutes, setRoute, Dims.admits, others, Sys.sample, conv,
          rowFilters, weight, Sys.setFilter]
        norm_num)
  · exact (crossfade_stream_law (d := ⟨1, 1, 1, 1, 1, 1⟩) (T := 2) (by decide) (by decide) fft2_law
      [⟨0, 0, 0, (1 : ℚ)⟩] (by simp) 1 1 (by decide) (fun _ _ => 2) 0 rfl
      [.process fun _ _ => 1, .setImpulseResponse [4] 0 true, .process fun _ _ => 1] (.process fun _ _ => 1)
      (by simp [OpOK]) trivial).trans
      (by
        simp [final, run, Sys.step, Sys.init, replaceRoutes, setRoutes, setRoute, Dims.admits, others, Sys.sample, conv,
          rowFilters, weight, Sys.setFilter]
        try norm_num)

end Visr.Crossfade
