import Verif.Convolver.Lemmas
import Mathlib.Algebra.BigOperators.Group.List.Basic
import Mathlib.Data.List.Perm.Basic
import Mathlib.Tactic.IntervalCases
import Mathlib.Algebra.Order.Field.Rat

/-!
# C14: block convolution equals linear convolution
-/

set_option linter.unusedSectionVars false

namespace Visr.Convolver
open Visr Visr.CircularBuffer

variable {K F : Type*} [Field K] [Field F] [Algebra K F]

/-! ### Routing tables -/

/-- No two entries for the same pair of input and output. -/
def Unique (t : List (Entry K)) : Prop := t.Pairwise fun a b => ¬ (a.input = b.input ∧ a.output = b.output)

theorem equiv_iff (a b : Entry K) : a.equiv b = true ↔ a.input = b.input ∧ a.output = b.output := by
  unfold Entry.equiv Entry.lt
  by_cases h : a.output = b.output
  · simp only [h, if_true]
    simp
    omega
  · rw [if_neg h, if_neg (Ne.symm h)]
    simp [h]
    omega

theorem eraseEntry_eq (e : Entry K) (t : List (Entry K)) (h : Unique t) : eraseEntry e t = others e t := by
  induction t with
  | nil => rfl
  | cons x xs ih =>
    obtain ⟨h1, h2⟩ := List.pairwise_cons.mp h
    unfold eraseEntry others
    by_cases hx : x.equiv e = true
    · have hk := (equiv_iff x e).mp hx
      rw [if_pos hx, List.filter_cons_of_neg (by simp [hk])]
      symm
      rw [List.filter_eq_self]
      intro y hy
      have := h1 y hy
      simp only [decide_eq_true_eq]
      rintro ⟨g1, g2⟩
      exact this ⟨by rw [hk.1, g1], by rw [hk.2, g2]⟩
    · have hk : ¬ (x.input = e.input ∧ x.output = e.output) := fun hc => hx ((equiv_iff x e).mpr hc)
      rw [if_neg hx, List.filter_cons_of_pos (by exact decide_eq_true hk), ih h2]
      rfl

theorem insertEntry_perm (e : Entry K) (t : List (Entry K)) : (insertEntry e t).Perm (e :: t) := by
  induction t with
  | nil => exact List.Perm.refl _
  | cons x xs ih =>
    unfold insertEntry
    split_ifs
    · exact List.Perm.refl _
    · exact (List.Perm.cons x ih).trans (List.Perm.swap e x xs)

theorem unique_perm {t t' : List (Entry K)} (h : t.Perm t') (hu : Unique t) : Unique t' :=
  h.pairwise hu (fun hab hc => hab ⟨hc.1.symm, hc.2.symm⟩)

theorem unique_set (e : Entry K) {t : List (Entry K)} (h : Unique t) : Unique (e :: others e t) := by
  refine List.pairwise_cons.mpr ⟨?_, List.Pairwise.filter _ h⟩
  intro y hy
  have := (List.mem_filter.mp hy).2
  simp only [decide_eq_true_eq] at this
  rintro ⟨g1, g2⟩
  exact this ⟨g1.symm, g2.symm⟩

/-- The routing table of the convolver represents the list `routes`. -/
structure RoutesRep (d : Dims) (r : Routes K) (routes : List (Entry K)) : Prop where
  inputs : r.inputs = d.inputs
  outputs : r.outputs = d.outputs
  filters : r.filters = d.entries
  capacity : r.capacity = d.maxRoutings
  perm : r.table.Perm routes
  unique : Unique routes
  size : routes.length ≤ d.maxRoutings
  admits : ∀ e ∈ routes, d.admits e

theorem others_perm (e : Entry K) {t t' : List (Entry K)} (h : t.Perm t') : (others e t).Perm (others e t') := h.filter _

theorem others_eq_self_or (e : Entry K) (t : List (Entry K)) :
    others e t = t ∨ (others e t).length < t.length := by
  by_cases h : (others e t).length < t.length
  · exact Or.inr h
  · left
    have hs : (others e t).Sublist t := List.filter_sublist
    exact hs.eq_of_length (by have := hs.length_le; omega)

theorem routesRep_set {d : Dims} {r : Routes K} {routes : List (Entry K)} (h : RoutesRep d r routes) (e : Entry K) :
    (setRoute d routes e = none → r.set e = (r, .throw .invalidArgument)) ∧
    (∀ routes', setRoute d routes e = some routes' → ∃ r', r.set e = (r', .ok ()) ∧ RoutesRep d r' routes') := by
  have hut : Unique r.table := unique_perm h.perm.symm h.unique
  have hlen : (others e r.table).length = (others e routes).length := (others_perm e h.perm).length_eq
  unfold setRoute Routes.set
  rw [eraseEntry_eq e r.table hut]
  have e1 := h.inputs
  have e2 := h.outputs
  have e3 := h.filters
  have e4 := h.capacity
  simp only []
  constructor
  · intro hn
    split_ifs at hn with hc
    by_cases ha : d.admits e
    · obtain ⟨a1, a2, a3⟩ := ha
      have hcap : ¬ (others e routes).length < d.maxRoutings := fun hx => hc ⟨⟨a1, a2, a3⟩, hx⟩
      rw [if_neg (by omega), if_neg (by omega), if_neg (by omega), if_pos (by omega)]
      have hsz := h.size
      rcases others_eq_self_or e r.table with ho | ho
      · rw [ho]
      · have := h.perm.length_eq
        omega
    · by_cases a1 : e.input < d.inputs
      · by_cases a2 : e.output < d.outputs
        · have a3 : ¬ e.filter < d.entries := fun a3 => ha ⟨a1, a2, a3⟩
          rw [if_neg (by omega), if_neg (by omega), if_pos (by omega)]
        · rw [if_neg (by omega), if_pos (by omega)]
      · rw [if_pos (by omega)]
  · intro routes' hs
    split_ifs at hs with hc
    injection hs with hs
    subst hs
    obtain ⟨⟨a1, a2, a3⟩, hcap⟩ := hc
    rw [if_neg (by omega), if_neg (by omega), if_neg (by omega), if_neg (by omega)]
    refine ⟨_, rfl, h.inputs, h.outputs, h.filters, h.capacity, ?_, unique_set e h.unique, ?_, ?_⟩
    · exact (insertEntry_perm e _).trans (List.Perm.cons e (others_perm e h.perm))
    · simp only [List.length_cons]; omega
    · intro x hx
      rcases List.mem_cons.mp hx with rfl | hx
      · exact ⟨a1, a2, a3⟩
      · exact h.admits x (List.mem_filter.mp hx).1

theorem routesRep_setAll {d : Dims} (es : List (Entry K)) : ∀ {r : Routes K} {routes : List (Entry K)},
    RoutesRep d r routes →
    RoutesRep d (r.setAll es).1 (setRoutes d routes es).1 ∧ (r.setAll es).2 = (setRoutes d routes es).2 := by
  induction es with
  | nil => intro r routes h; exact ⟨h, rfl⟩
  | cons e es ih =>
    intro r routes h
    obtain ⟨h1, h2⟩ := routesRep_set h e
    unfold Routes.setAll setRoutes
    cases hs : setRoute d routes e with
    | none => rw [h1 hs]; exact ⟨h, rfl⟩
    | some routes' =>
      obtain ⟨r', g1, g2⟩ := h2 routes' hs
      rw [g1]
      exact ih g2

theorem routesRep_clear {d : Dims} {r : Routes K} {routes : List (Entry K)} (h : RoutesRep d r routes) :
    RoutesRep d r.clear [] :=
  ⟨h.inputs, h.outputs, h.filters, h.capacity, List.Perm.refl _, List.Pairwise.nil, Nat.zero_le _, by simp⟩

theorem routesRep_init {d : Dims} {r : Routes K} {routes : List (Entry K)} (h : RoutesRep d r routes) (es : List (Entry K)) :
    RoutesRep d (r.initTable es).1 (replaceRoutes d es).1 ∧ (r.initTable es).2 = (replaceRoutes d es).2 := by
  unfold Routes.initTable replaceRoutes
  simp only [h.capacity]
  split_ifs
  · exact ⟨routesRep_clear h, rfl⟩
  · exact routesRep_setAll es (routesRep_clear h)

/-! ### Outputs -/

theorem inv_zero {L : Nat} {fft : Fft K F} (hlaw : Law L fft) (n : Nat) (hn : n < 2 * L) : fft.inv (fun _ => 0) n = 0 := by
  have := hlaw.inv_smul 0 (fun _ => 0) n hn
  simpa using this

theorem routeLoop_ok {c : Core K F} {L : Nat} {h xs : Nat → List K} {time : Nat} (hr : CoreRep c L h xs (time + L))
    (hp : 0 < c.parts) (es : List (Entry K)) : ∀ (out : Nat → Nat → F),
    (∀ e ∈ es, e.input < c.inputs ∧ e.filter < c.entries) →
    ∃ out', routeLoop c out es = .ok out' ∧ ∀ o, ∀ n < L, c.fft.inv (out' o) (L + n) = c.fft.inv (out o) (L + n) +
      ((es.filter fun e => e.output = o).map fun e => e.gain * conv (h e.filter) (xs e.input) (time + n)).sum := by
  induction es with
  | nil => intro out _; exact ⟨out, rfl, by simp⟩
  | cons e es ih =>
    intro out hes
    obtain ⟨hi, hf⟩ := hes e (by simp)
    have hlaw := hr.shape.law
    unfold routeLoop Core.processFilter
    rw [if_neg (by omega)]
    simp only [if_true]
    obtain ⟨out', h1, h2⟩ := ih (fun o => if o = e.output then (fun k => if k < c.padded then
      out e.output k + algebraMap K F e.gain * accLoop c e.input e.filter (c.parts - 1) k else out e.output k) else out o)
      (fun x hx => hes x (by simp [hx]))
    refine ⟨out', h1, ?_⟩
    intro o n hn
    rw [h2 o n hn]
    by_cases ho : e.output = o
    · subst ho
      rw [if_pos rfl, List.filter_cons_of_pos (by simp), List.map_cons, List.sum_cons, ← add_assoc]
      congr 1
      rw [← acc_conv hr e.input e.filter hi hf hp n hn, ← hlaw.inv_smul _ _ _ (by omega), ← hlaw.inv_add _ _ _ (by omega)]
      apply hlaw.inv_congr _ _ _ _ (by omega)
      intro k hk
      rw [if_pos (by have := hr.shape.padded; omega)]
    · rw [if_neg (Ne.symm ho), List.filter_cons_of_neg (by simpa using ho)]

/-! ### The convolver -/

/-- The convolver represents the specification state. -/
structure Rep (d : Dims) (s : Multi K F) (t : Sys K) : Prop where
  core : CoreRep s.core d.block t.filters t.streams t.time
  inputs : s.core.inputs = d.inputs
  outputs : s.core.outputs = d.outputs
  entries : s.core.entries = d.entries
  maxLen : s.core.maxLen = d.maxLen
  parts : 0 < s.core.parts
  routes : RoutesRep d s.routes t.routes

theorem step_ok {d : Dims} {s : Multi K F} {t : Sys K} (hr : Rep d s t) (op : Op K) (hop : OpOK op) :
    Rep d (s.step op).1 (Sys.step d t op).1 ∧ (s.step op).2 = (Sys.step d t op).2 := by
  cases op with
  | setImpulseResponse ir idx =>
    obtain ⟨h1, h2⟩ := coreRep_setImpulseResponse hr.core ir idx
    simp only [Multi.step, Sys.step]
    by_cases hc : idx < d.entries ∧ ir.length ≤ d.maxLen
    · obtain ⟨row, g1, g2⟩ := h2 (by rw [hr.entries, hr.maxLen]; exact hc)
      rw [g1, if_pos hc]
      exact ⟨⟨g2, hr.inputs, hr.outputs, hr.entries, hr.maxLen, hr.parts, hr.routes⟩, rfl⟩
    · rw [h1 (by rw [hr.entries, hr.maxLen]; exact hc), if_neg hc]
      exact ⟨hr, rfl⟩
  | initFilters rows cols m =>
    obtain ⟨h1, h2⟩ := coreRep_initFilters hr.core rows cols m
    simp only [Multi.step, Sys.step]
    by_cases hc : rows ≤ d.entries ∧ cols ≤ d.maxLen
    · obtain ⟨filt, g1, g2⟩ := h2 (by rw [hr.entries, hr.maxLen]; exact hc)
      rw [g1, if_pos hc]
      exact ⟨⟨g2, hr.inputs, hr.outputs, hr.entries, hr.maxLen, hr.parts, hr.routes⟩, rfl⟩
    · rw [h1 (by rw [hr.entries, hr.maxLen]; exact hc), if_neg hc]
      exact ⟨⟨coreRep_clear hr.core, hr.inputs, hr.outputs, hr.entries, hr.maxLen, hr.parts, hr.routes⟩, rfl⟩
  | clearFilters =>
    exact ⟨⟨coreRep_clear hr.core, hr.inputs, hr.outputs, hr.entries, hr.maxLen, hr.parts, hr.routes⟩, rfl⟩
  | setRouting e =>
    obtain ⟨h1, h2⟩ := routesRep_set hr.routes e
    simp only [Multi.step, Sys.step]
    cases hs : setRoute d t.routes e with
    | none => rw [h1 hs]; exact ⟨hr, rfl⟩
    | some routes' =>
      obtain ⟨r', g1, g2⟩ := h2 routes' hs
      rw [g1]
      exact ⟨⟨hr.core, hr.inputs, hr.outputs, hr.entries, hr.maxLen, hr.parts, g2⟩, rfl⟩
  | removeRouting i o => exact absurd hop id
  | clearRoutings =>
    exact ⟨⟨hr.core, hr.inputs, hr.outputs, hr.entries, hr.maxLen, hr.parts, routesRep_clear hr.routes⟩, rfl⟩
  | initRoutings es =>
    obtain ⟨h1, h2⟩ := routesRep_init hr.routes es
    refine ⟨⟨hr.core, hr.inputs, hr.outputs, hr.entries, hr.maxLen, hr.parts, h1⟩, ?_⟩
    simp only [Multi.step, Sys.step, h2]
  | process data =>
    obtain ⟨c', h1, h2, h3, h4, h5, h6, h7⟩ := coreRep_processInputs hr.core hr.parts data
    simp only [Multi.step, Sys.step, h1]
    have hp : 0 < c'.parts := by rw [h7]; exact hr.parts
    refine ⟨⟨h2, h3.trans hr.inputs, h4.trans hr.outputs, h5.trans hr.entries, h6.trans hr.maxLen, hp, hr.routes⟩, ?_⟩
    obtain ⟨out, g1, g2⟩ := routeLoop_ok h2 hp s.routes.table (fun _ _ => 0) (by
      intro e he
      obtain ⟨a1, a2, a3⟩ := hr.routes.admits e (hr.routes.perm.mem_iff.mp he)
      rw [h3, h5, hr.inputs, hr.entries]; exact ⟨a1, a3⟩)
    unfold Multi.processOutputs
    simp only [g1, Outcome.map]
    rw [h4, hr.outputs]
    refine congrArg (fun l => Outcome.ok (Res.signals l)) (List.map_congr_left ?_)
    intro o _
    unfold Core.transformOutput
    rw [h2.shape.dft, h2.shape.block, show 2 * d.block - d.block = d.block by omega]
    apply List.map_congr_left
    intro i hi
    have hi := List.mem_range.mp hi
    rw [g2 o i hi, inv_zero h2.shape.law _ (by omega), zero_add]
    simp only [Sys.sample]
    exact ((hr.routes.perm.filter _).map _).sum_eq

theorem shape_create {block maxLen align : Nat} (hb : 0 < block) {fft : Fft K F} (hlaw : Law block fft)
    (inputs outputs entries : Nat) (buf : CB K) (fdl filt : Nat → Nat → F) :
    Shape { inputs, outputs, block, maxLen, entries, fft, dft := calculateDftSize block
            parts := calculateNumberOfPartitions maxLen block
            padded := calculateDftRepresentationSizePadded block (align / 2)
            scale := calculateFilterScalingFactor fft (calculateDftSize block)
            buf, fdl, offset := 0, filt } block := by
  refine ⟨hb, rfl, rfl, ?_, ?_, ?_, hlaw⟩
  · have := le_nextAlignedSize (block + 1) (align / 2)
    show block < Efl.nextAlignedSize (calculateDftSize block / 2 + 1) (align / 2)
    unfold calculateDftSize
    rw [show 2 * block / 2 = block by omega]
    unfold Efl.nextAlignedSize
    unfold nextAlignedSize at this
    simp only []
    omega
  · show calculateNumberOfPartitions maxLen block * block ≥ maxLen
    unfold calculateNumberOfPartitions
    have h1 := Nat.div_add_mod (maxLen + block - 1) block
    have h2 := Nat.mod_lt (maxLen + block - 1) hb
    rw [Nat.mul_comm] at h1
    omega
  · show fft.is * ((2 * block : Nat) : K) * (1 / (fft.fs * fft.is * ((2 * block : Nat) : K))) = 1
    rw [hlaw.fs, one_mul]
    exact mul_one_div_cancel hlaw.is

theorem parts_pos {maxLen block : Nat} (hb : 0 < block) (hm : 0 < maxLen) : 0 < calculateNumberOfPartitions maxLen block := by
  unfold calculateNumberOfPartitions
  exact Nat.div_pos (by omega) hb

/-- Initial state of the specification. -/
def Sys.init (d : Dims) (routings : List (Entry K)) (rows cols : Nat) (m : Nat → Nat → K) : Sys K :=
  ⟨rowFilters rows cols m, (replaceRoutes d routings).1, fun _ => [], 0⟩

theorem create_ok (d : Dims) (hb : 0 < d.block) (hm : 0 < d.maxLen) {fft : Fft K F} (hlaw : Law d.block fft)
    (routings : List (Entry K)) (rows cols : Nat) (m : Nat → Nat → K) (align : Nat) :
    (rows ≤ d.entries ∧ cols ≤ d.maxLen ∧ (replaceRoutes d routings).2 = .ok () →
      ∃ s, Multi.create d.inputs d.outputs d.block d.maxLen d.maxRoutings d.entries routings rows cols m align fft = .ok s ∧
        Rep d s (Sys.init d routings rows cols m)) ∧
    (¬ (rows ≤ d.entries ∧ cols ≤ d.maxLen ∧ (replaceRoutes d routings).2 = .ok ()) →
      Multi.create d.inputs d.outputs d.block d.maxLen d.maxRoutings d.entries routings rows cols m align fft =
        .throw .invalidArgument) := by
  unfold Multi.create Core.create
  rw [if_neg (by omega)]
  simp only []
  obtain ⟨c, hc⟩ : ∃ c : Core K F, c =
      { inputs := d.inputs, outputs := d.outputs, block := d.block, maxLen := d.maxLen, entries := d.entries, fft
        dft := calculateDftSize d.block
        parts := calculateNumberOfPartitions d.maxLen d.block
        padded := calculateDftRepresentationSizePadded d.block (align / 2)
        scale := calculateFilterScalingFactor fft (calculateDftSize d.block)
        buf := CB.init d.inputs (calculateDftSize d.block) align
        fdl := fun _ _ => 0
        offset := 0
        filt := fun _ _ => 0 } := ⟨_, rfl⟩
  rw [← hc]
  have hrep : CoreRep c d.block (fun _ => []) (fun _ => []) 0 := by
    have hs : Shape c d.block := by rw [hc]; exact shape_create hb hlaw _ _ _ _ _ _
    refine ⟨hs, ?_, by simp, ?_, ?_, ?_, by simp, ?_, ?_⟩
    · intro f _
      have : c.filt f = fun _ => 0 := by rw [hc]
      rw [this]; exact rowHolds_zero hs
    · rw [hc]; exact rep_init _ _ _ (by unfold calculateDftSize; omega)
    · rw [hc]; rfl
    · rw [hc]; rfl
    · intro hp; rw [hc] at hp ⊢; exact hp
    · intro ch _ j _ k hk
      have h0 : c.fdl ch (c.fdlColumn j + k) = 0 := by rw [hc]
      rw [h0, ← hs.law.zero k hk]
      apply hs.law.fwd_congr _ _ _ k hk
      intro i _
      simp [past]
  have hent : c.entries = d.entries := by rw [hc]
  have hml : c.maxLen = d.maxLen := by rw [hc]
  have hin : c.inputs = d.inputs := by rw [hc]
  have hout : c.outputs = d.outputs := by rw [hc]
  have hparts : 0 < c.parts := by rw [hc]; exact parts_pos hb hm
  clear hc
  obtain ⟨f1, f2⟩ := coreRep_initFilters hrep rows cols m
  have hr0 : RoutesRep d (⟨d.inputs, d.outputs, d.entries, d.maxRoutings, []⟩ : Routes K) [] :=
    ⟨rfl, rfl, rfl, rfl, List.Perm.refl _, List.Pairwise.nil, Nat.zero_le _, by simp⟩
  obtain ⟨r1, r2⟩ := routesRep_init hr0 routings
  obtain ⟨R, hR⟩ : ∃ R, R = Routes.initTable (⟨d.inputs, d.outputs, d.entries, d.maxRoutings, []⟩ : Routes K) routings :=
    ⟨_, rfl⟩
  rw [← hR] at r1 r2 ⊢
  obtain ⟨Rt, Ro⟩ := R
  have hthrow : ∀ (routes : List (Entry K)) (es : List (Entry K)), (setRoutes d routes es).2 = .ok () ∨
      (setRoutes d routes es).2 = .throw .invalidArgument := by
    intro routes es
    induction es generalizing routes with
    | nil => exact Or.inl rfl
    | cons e es ih =>
      unfold setRoutes
      cases setRoute d routes e with
      | none => exact Or.inr rfl
      | some r => exact ih r
  have hro : (replaceRoutes d routings).2 = .ok () ∨ (replaceRoutes d routings).2 = .throw .invalidArgument := by
    unfold replaceRoutes
    split_ifs
    · exact Or.inr rfl
    · exact hthrow _ _
  constructor
  · rintro ⟨h1, h2, h3⟩
    obtain ⟨filt, g1, g2⟩ := f2 (by rw [hent, hml]; exact ⟨h1, h2⟩)
    rw [g1]
    simp only at r2
    rw [h3] at r2
    subst r2
    exact ⟨_, rfl, g2, hin, hout, hent, hml, hparts, r1⟩
  · intro hn
    by_cases hf : rows ≤ d.entries ∧ cols ≤ d.maxLen
    · obtain ⟨filt, g1, g2⟩ := f2 (by rw [hent, hml]; exact hf)
      rw [g1]
      simp only at r2
      rcases hro with h | h
      · exact absurd ⟨hf.1, hf.2, h⟩ hn
      · rw [h] at r2; subst r2; rfl
    · rw [f1 (by rw [hent, hml]; exact hf)]

theorem final_rep {d : Dims} (past : List (Op K)) (hpast : ∀ o ∈ past, OpOK o) : ∀ {s : Multi K F} {t : Sys K},
    Rep d s t → Rep d (final Multi.step s past) (past.foldl (fun t o => (Sys.step d t o).1) t) := by
  induction past with
  | nil => intro s t h; exact h
  | cons o past ih =>
    intro s t h
    simp only [final_cons, List.foldl_cons]
    exact ih (fun x hx => hpast x (by simp [hx])) (step_ok h o (hpast o (by simp))).1

theorem convolver_stream_law {d : Dims} (hb : 0 < d.block) (hm : 0 < d.maxLen) {fft : Fft K F} (hlaw : Law d.block fft)
    (routings : List (Entry K)) (rows cols : Nat) (m : Nat → Nat → K) (align : Nat) {s : Multi K F}
    (hs : Multi.create d.inputs d.outputs d.block d.maxLen d.maxRoutings d.entries routings rows cols m align fft = .ok s)
    (past : List (Op K)) (op : Op K) (hpast : ∀ o ∈ past, OpOK o) (hop : OpOK op) :
    (Multi.step (final Multi.step s past) op).2 =
      (Sys.step d (past.foldl (fun t o => (Sys.step d t o).1) (Sys.init d routings rows cols m)) op).2 := by
  obtain ⟨h1, h2⟩ := create_ok d hb hm hlaw routings rows cols m align
  by_cases hc : rows ≤ d.entries ∧ cols ≤ d.maxLen ∧ (replaceRoutes d routings).2 = .ok ()
  · obtain ⟨s', g1, g2⟩ := h1 hc
    rw [g1] at hs
    injection hs with hs
    subst hs
    exact (step_ok (final_rep past hpast g2) op hop).2
  · rw [h2 hc] at hs; cases hs

/-- **C14.** A convolver with any number of channels, any positive block and maximum filter length and any FFT
implementation computing the discrete Fourier transform. After any history of filter changes, routing changes and
processed blocks, each call has the specified result; in particular a processed block consists of the samples of the
gain-weighted sums of the linear convolutions of the complete input streams with the impulse responses in force. -/
theorem convolver_stream {d : Dims} (hb : 0 < d.block) (hm : 0 < d.maxLen) {fft : Fft ℝ ℂ} (hfft : IsDft d.block fft)
    (routings : List (Entry ℝ)) (rows cols : Nat) (m : Nat → Nat → ℝ) (align : Nat) {s : Multi ℝ ℂ}
    (hs : Multi.create d.inputs d.outputs d.block d.maxLen d.maxRoutings d.entries routings rows cols m align fft = .ok s)
    (past : List (Op ℝ)) (op : Op ℝ) (hpast : ∀ o ∈ past, OpOK o) (hop : OpOK op) :
    (Multi.step (final Multi.step s past) op).2 =
      (Sys.step d (past.foldl (fun t o => (Sys.step d t o).1) (Sys.init d routings rows cols m)) op).2 :=
  convolver_stream_law hb hm (isDft_law hb hfft) routings rows cols m align hs past op hpast hop

/-- **C14, construction.** The constructor succeeds exactly if the initial filters and routings are within the limits. -/
theorem convolver_create {d : Dims} (hb : 0 < d.block) (hm : 0 < d.maxLen) {fft : Fft ℝ ℂ} (hfft : IsDft d.block fft)
    (routings : List (Entry ℝ)) (rows cols : Nat) (m : Nat → Nat → ℝ) (align : Nat) :
    let r := Multi.create d.inputs d.outputs d.block d.maxLen d.maxRoutings d.entries routings rows cols m align fft
    ((∃ s, r = .ok s) ↔ rows ≤ d.entries ∧ cols ≤ d.maxLen ∧ (replaceRoutes d routings).2 = .ok ()) ∧
    ((¬ ∃ s, r = .ok s) → r = .throw .invalidArgument) := by
  intro r
  obtain ⟨h1, h2⟩ := create_ok d hb hm (isDft_law hb hfft) routings rows cols m align
  by_cases hc : rows ≤ d.entries ∧ cols ≤ d.maxLen ∧ (replaceRoutes d routings).2 = .ok ()
  · obtain ⟨s, g1, _⟩ := h1 hc
    exact ⟨⟨fun _ => hc, fun _ => ⟨s, g1⟩⟩, fun hn => absurd ⟨s, g1⟩ hn⟩
  · have hne : ¬ ∃ s, r = .ok s := by
      rintro ⟨s, hs⟩
      rw [show r = .throw .invalidArgument from h2 hc] at hs
      cases hs
    exact ⟨⟨fun h => absurd h hne, fun h => absurd h hc⟩, fun _ => h2 hc⟩

/-- **C14, finding.** A maximum filter length of zero is accepted by the constructor, but processing a block is undefined
behaviour (remainder of a division by zero). -/
theorem convolver_no_taps_ub (inputs outputs block maxRoutings entries align : Nat) (hb : 0 < block) (fft : Fft K F)
    (data : Nat → Nat → K) :
    ∃ s, Multi.create inputs outputs block 0 maxRoutings entries [] 0 0 (fun _ _ => 0) align fft = .ok s ∧
      (s.step (.process data)).2 = .ub := by
  have hp : calculateNumberOfPartitions 0 block = 0 := by
    unfold calculateNumberOfPartitions; exact Nat.div_eq_of_lt (by omega)
  unfold Multi.create Core.create
  rw [if_neg (by omega)]
  simp only [Core.initFilters, Core.clearFilters, initLoop, Routes.initTable, Routes.clear, Routes.setAll,
    Nat.not_lt_zero, if_false, List.length_nil, gt_iff_lt]
  refine ⟨_, rfl, ?_⟩
  have hl : block ≤ (CB.init inputs (calculateDftSize block) align : CB K).length := by
    show block ≤ calculateDftSize block
    unfold calculateDftSize; omega
  obtain ⟨b', h1, _⟩ := rep_write (rep_init (α := K) inputs (calculateDftSize block) align
    (by unfold calculateDftSize; omega)) data hl
  have h1' : (CB.init inputs (calculateDftSize block) align : CB K).write data inputs block = .ok b' := h1
  simp only [Multi.step, Core.processInputs, h1', Core.advanceFDL, hp, if_true]

/-- **C14, finding.** Removing an existing routing is undefined behaviour: the function compares an iterator to an erased
element. The table itself is updated as intended. -/
theorem remove_existing_ub {d : Dims} {r : Routes K} {routes : List (Entry K)} (h : RoutesRep d r routes) (e : Entry K)
    (he : e ∈ routes) :
    (r.remove e.input e.output 0 0).2 = .ub ∧ RoutesRep d (r.remove e.input e.output 0 0).1 (others e routes) := by
  have heq : ∀ t : List (Entry K), t.filter (fun x => !x.equiv ⟨e.input, e.output, 0, 0⟩) = others e t := by
    intro t
    unfold others
    apply List.filter_congr
    intro x _
    have := equiv_iff x (⟨e.input, e.output, 0, 0⟩ : Entry K)
    by_cases hx : x.input = e.input ∧ x.output = e.output
    · rw [this.mpr hx]; simp [hx]
    · have : x.equiv (⟨e.input, e.output, 0, 0⟩ : Entry K) = false := by
        rw [Bool.eq_false_iff]; exact fun hc => hx (this.mp hc)
      rw [this]; exact (decide_eq_true hx).symm
  unfold Routes.remove
  simp only [heq]
  refine ⟨?_, h.inputs, h.outputs, h.filters, h.capacity, others_perm e h.perm, List.Pairwise.filter _ h.unique, ?_, ?_⟩
  · rw [if_pos]
    rcases others_eq_self_or e r.table with ho | ho
    · exfalso
      have hmem : e ∈ others e r.table := by rw [ho]; exact h.perm.mem_iff.mpr he
      have := (List.mem_filter.mp hmem).2
      simp at this
    · exact ho
  · have : (others e routes).length ≤ routes.length := List.length_filter_le _ _
    have := h.size
    omega
  · intro x hx; exact h.admits x (List.mem_filter.mp hx).1

/-- **C14, finding.** Removing a routing that does not exist returns `true` if a later routing exists. -/
theorem remove_absent_true :
    ∃ (r : Routes ℚ), (∀ e ∈ r.table, ¬ (e.input = 0 ∧ e.output = 0)) ∧ (r.remove 0 0 0 0).2 = .ok true :=
  ⟨⟨1, 2, 1, 1, [⟨0, 1, 0, 1⟩]⟩, by simp, by simp [Routes.remove, Entry.equiv, Entry.lt]⟩

/-! ### A concrete convolver: transforms of length 2 over the rationals -/

/-- The discrete Fourier transform of length 2. -/
def fft2 : Fft ℚ ℚ where
  fwd x k := if k = 0 then x 0 + x 1 else x 0 - x 1
  inv X n := if n = 0 then X 0 + X 1 else X 0 - X 1
  fs := 1
  is := 1

theorem fft2_law : Law 1 fft2 where
  fs := rfl
  is := by norm_num [fft2]
  zero := by intro k hk; interval_cases k <;> simp [fft2]
  fwd_congr := by intro x x' h k hk; interval_cases k <;> simp [fft2, h]
  inv_congr := by intro X Y h n hn; interval_cases n <;> simp [fft2, h]
  inv_add := by intro X Y n hn; interval_cases n <;> simp [fft2] <;> ring
  inv_smul := by intro g X n hn; interval_cases n <;> simp [fft2] <;> ring
  inv_mul := by
    intro x h n hn
    interval_cases n <;> simp [fft2, cyc, Finset.sum_range_succ] <;> ring

/-- Two blocks of one sample through a filter with taps 2 and 3 and gain 10: outputs `20 x[0]`, `20 x[1] + 30 x[0]`. -/
example : ∃ s, Multi.create 1 1 1 2 1 1 [⟨0, 0, 0, (10 : ℚ)⟩] 1 2 (fun _ j => if j = 0 then 2 else 3) 0 fft2 = .ok s ∧
    (Multi.step (final Multi.step s [.process fun _ _ => 5]) (.process fun _ _ => 7)).2 = .ok (.signals [[290]]) := by
  obtain ⟨s, h1, h2⟩ := (create_ok ⟨1, 1, 1, 2, 1, 1⟩ (by decide) (by decide) fft2_law [⟨0, 0, 0, (10 : ℚ)⟩] 1 2
    (fun _ j => if j = 0 then 2 else 3) 0).1 ⟨by decide, by decide, rfl⟩
  refine ⟨s, h1, ?_⟩
  rw [convolver_stream_law (d := ⟨1, 1, 1, 2, 1, 1⟩) (by decide) (by decide) fft2_law _ _ _ _ _ h1 _ _
    (by simp [OpOK]) (show OpOK (.process _) from trivial)]
  simp [Sys.step, Sys.init, replaceRoutes, setRoutes, setRoute, Dims.admits, others, Sys.sample, conv, rowFilters,
    Finset.sum_range_succ]
  norm_num

end Visr.Convolver
