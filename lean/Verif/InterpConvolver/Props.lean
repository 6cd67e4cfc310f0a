import Verif.InterpConvolver.Lemmas
import Verif.FirMatrix.Props

/-!
# Property theorems for the interpolating convolver (C68)
-/

set_option linter.unusedSectionVars false

namespace Visr.InterpConvolver
open Visr Visr.Convolver

variable {K F : Type} [Field K] [Field F] [Algebra K F]

/-- The convolver represents the specification state. -/
structure Rep (d : Limits) (T : Nat) (s : Ic K F) (t : Sys K) : Prop where
  conv : Crossfade.Rep d.dims T s.conv t.run
  linear : FwdLinear d.block s.conv.core.fft
  rows : ∀ f < d.maxFilters, RowHolds s.conv.core d.block (s.filters f) (t.filters f)
  len : ∀ f, (t.filters f).length ≤ d.maxLen
  filterRows : s.filterRows = d.maxFilters
  interpolants : s.interpolants = d.interpolants

theorem Rep.capacity {d : Limits} {T : Nat} {s : Ic K F} {t : Sys K} (hr : Rep d T s t) :
    s.maxNumberOfRoutingPoints = d.maxRoutings := hr.conv.routes.capacity

theorem Rep.shape {d : Limits} {T : Nat} {s : Ic K F} {t : Sys K} (hr : Rep d T s t) : Shape s.conv.core d.block :=
  hr.conv.core.shape

theorem Rep.maxLen {d : Limits} {T : Nat} {s : Ic K F} {t : Sys K} (hr : Rep d T s t) : s.conv.core.maxLen = d.maxLen :=
  hr.conv.maxLen

/-- A step of the running convolver that keeps the layout. -/
theorem Rep.step {d : Limits} {T : Nat} {s : Ic K F} {t : Sys K} (hr : Rep d T s t) {c : Crossfade.Xf K F}
    {u : Crossfade.Sys K} (h : Crossfade.Rep d.dims T c u) (hl : SameLayout s.conv.core c.core) :
    Rep d T { s with conv := c } { t with run := u } :=
  ⟨h, by show FwdLinear d.block c.core.fft; rw [hl.2.2.1]; exact hr.linear, fun f hf => hl.row (hr.rows f hf), hr.len,
    hr.filterRows, hr.interpolants⟩

theorem max_bound {l : List Nat} {m : Nat} (h : l.max? = some m) (n : Nat) : n ≤ m ↔ ∃ i ∈ l, n ≤ i := by
  have hm := List.max?_eq_some_iff.mp h
  constructor
  · intro hn; exact ⟨m, hm.1, hn⟩
  · rintro ⟨i, hi, hn⟩; exact le_trans hn (hm.2 i hi)

theorem setInterpolant_ok {d : Limits} {T : Nat} (hi : 0 < d.interpolants) {s : Ic K F} {t : Sys K} (hr : Rep d T s t)
    (p : InterpParam.Param K) (hp : ParamOK d p) (start : Bool) :
    (∀ e, t.setInterpolant d p start = .throw e → s.setInterpolant p start = .throw e) ∧
    (∀ t', t.setInterpolant d p start = .ok t' → ∃ s', s.setInterpolant p start = .ok s' ∧ Rep d T s' t') ∧
    t.setInterpolant d p start ≠ .ub := by
  obtain ⟨conv, fl, fr, ip⟩ := s
  obtain rfl : fr = d.maxFilters := hr.filterRows
  obtain rfl : ip = d.interpolants := hr.interpolants
  unfold Sys.setInterpolant Ic.setInterpolant
  rw [hr.capacity]
  unfold InterpParam.numberOfInterpolants
  by_cases h1 : p.id ≥ d.maxRoutings
  · simp only [if_pos h1]
    exact ⟨fun e h => by injection h with h; rw [h], by simp, by simp⟩
  · simp only [if_neg h1]
    by_cases h2 : p.weights.length ≠ d.interpolants
    · simp only [if_pos h2]
      exact ⟨fun e h => by injection h with h; rw [h], by simp, by simp⟩
    · simp only [if_neg h2]
      have h2 : p.weights.length = d.interpolants := not_not.mp h2
      have hne : p.indices ≠ [] := by
        intro h; have := hp.1; rw [h] at this; simp at this; omega
      cases hm : p.indices.max? with
      | none => exact absurd (List.max?_eq_none_iff.mp hm) hne
      | some mx =>
        have hmx := max_bound hm d.maxFilters
        simp only
        by_cases h3 : ∃ i ∈ p.indices, d.maxFilters ≤ i
        · rw [if_pos h3, if_pos (hmx.mpr h3)]
          exact ⟨fun e h => by injection h with h; rw [h], by simp, by simp⟩
        · rw [if_neg h3, if_neg (fun h => h3 (hmx.mp h))]
          refine ⟨by simp, ?_, by simp⟩
          intro t' ht
          injection ht with ht
          subst ht
          obtain ⟨fd, g1, g2⟩ := mixLoop_ok ⟨conv, fl, d.maxFilters, d.interpolants⟩ p hp.1 (d.interpolants - 1) (by omega)
          rw [g1]
          have hfull : ∀ k, fd k = ((p.indices.zip p.weights).map fun x => algebraMap K F x.2 * fl x.1 k).sum := by
            intro k
            rw [g2 k, List.take_of_length_le (by simp; omega)]
          have hrow := rowHolds_blend hr.shape hr.linear (rows := fl) (filters := t.filters) p
            (by rw [hr.maxLen]; exact hr.len)
            (fun i hmem => hr.rows i (by by_contra hc; exact h3 ⟨i, hmem, by omega⟩)) hfull
          rw [hr.maxLen] at hrow
          have hslot : p.id < d.dims.entries := by
            rcases hp.2 with h | h
            · exact h
            · omega
          obtain ⟨c, k1, k2, filt, k3⟩ := rep_setRow hr.conv _ fd p.id hslot start
            (le_of_eq (blend_length d.maxLen t.filters p)) hrow
          simp only [k1]
          refine ⟨_, rfl, hr.step k2 ?_⟩
          rw [k3]; exact ⟨rfl, rfl, rfl, rfl, rfl⟩

theorem setInterpolants_ok {d : Limits} {T : Nat} (hi : 0 < d.interpolants) (start : Bool) (ps : List (InterpParam.Param K)) :
    ∀ {s : Ic K F} {t : Sys K}, Rep d T s t → (∀ p ∈ ps, ParamOK d p) →
    Rep d T (s.setInterpolants start ps).1 (t.setInterpolants d start ps).1 ∧
      (s.setInterpolants start ps).2 = (t.setInterpolants d start ps).2 := by
  induction ps with
  | nil => intro s t hr _; exact ⟨hr, rfl⟩
  | cons p ps ih =>
    intro s t hr hp
    obtain ⟨h1, h2, h3⟩ := setInterpolant_ok hi hr p (hp p (by simp)) start
    simp only [Ic.setInterpolants, Sys.setInterpolants]
    cases ht : t.setInterpolant d p start with
    | ok t' =>
      obtain ⟨s', g1, g2⟩ := h2 t' ht
      rw [g1]
      exact ih g2 (fun x hx => hp x (by simp [hx]))
    | throw e => rw [h1 e ht]; exact ⟨hr, rfl⟩
    | ub => exact absurd ht h3

theorem forward_ok {d : Limits} {T : Nat} {s : Ic K F} {t : Sys K} (hr : Rep d T s t) (op : Crossfade.Op K F)
    (hop : Crossfade.OpOK d.dims op)
    (h : (∃ e, op = .setRouting e) ∨ op = .clearRoutings ∨ (∃ es, op = .initRoutings es) ∨ (∃ x, op = .process x) ∨
      op = .clearFilters) :
    Rep d T (s.forward op).1 (t.forward F d T op).1 ∧ (s.forward op).2 = (t.forward F d T op).2 := by
  obtain ⟨h1, h2⟩ := Crossfade.step_ok hr.conv op hop
  exact ⟨hr.step h1 (step_layout s.conv op h), h2⟩

theorem initFilters_ok {d : Limits} {T : Nat} {s : Ic K F} {t : Sys K} (hr : Rep d T s t) (rows cols : Nat)
    (m : Nat → Nat → K) :
    (¬ (rows ≤ d.maxFilters ∧ cols ≤ d.maxLen) → s.initFilters rows cols m = .throw .invalidArgument) ∧
    (rows ≤ d.maxFilters ∧ cols ≤ d.maxLen → ∃ s', s.initFilters rows cols m = .ok s' ∧
      Rep d T s' { t with filters := rowFilters rows cols m }) := by
  obtain ⟨conv, fl, fr, ip⟩ := s
  obtain rfl : fr = d.maxFilters := hr.filterRows
  unfold Ic.initFilters
  simp only
  rw [show conv.core.maxLen = d.maxLen from hr.maxLen]
  constructor
  · intro h
    by_cases h1 : rows > d.maxFilters
    · rw [if_pos h1]
    · rw [if_neg h1, if_pos (by omega)]
  · rintro ⟨h1, h2⟩
    rw [if_neg (by omega), if_neg (by omega)]
    obtain ⟨fs, g1, g2⟩ := initLoop_ok hr.shape cols m fl (by rw [hr.maxLen]; exact h2) rows
    rw [g1]
    refine ⟨_, rfl, hr.conv, hr.linear, ?_, ?_, hr.filterRows, hr.interpolants⟩
    · intro f hf
      simp only [rowFilters]
      by_cases hfr : f < rows
      · rw [if_neg (by omega), if_pos hfr]; exact g2 f hfr
      · rw [if_pos (by omega), if_neg hfr]; exact rowHolds_zero hr.shape
    · intro f
      simp only [rowFilters]
      split_ifs
      · simpa using h2
      · simp

theorem step_ok {d : Limits} {T : Nat} (hi : 0 < d.interpolants) {s : Ic K F} {t : Sys K} (hr : Rep d T s t) (op : Op K)
    (hop : OpOK d op) :
    Rep d T (s.step op).1 (t.step F d T op).1 ∧ (s.step op).2 = (t.step F d T op).2 := by
  cases op with
  | setImpulseResponse ir idx =>
    obtain ⟨conv, fl, fr, ip⟩ := s
    obtain rfl : fr = d.maxFilters := hr.filterRows
    simp only [Ic.step, Sys.step, Ic.setImpulseResponse]
    rw [show conv.core.maxLen = d.maxLen from hr.maxLen]
    by_cases hc : idx < d.maxFilters ∧ ir.length ≤ d.maxLen
    · obtain ⟨row, g1, g2⟩ := transform_ok hr.shape ir (fl idx) (by rw [hr.maxLen]; exact hc.2)
      rw [if_neg (by omega), if_neg (by omega), if_pos hc, g1]
      simp only [Ic.attempt]
      refine ⟨⟨hr.conv, hr.linear, ?_, ?_, hr.filterRows, hr.interpolants⟩, trivial⟩
      · intro f hf
        simp only
        by_cases hfi : f = idx
        · rw [if_pos hfi, if_pos hfi]; exact g2
        · rw [if_neg hfi, if_neg hfi]; exact hr.rows f hf
      · intro f
        simp only
        split_ifs
        · exact hc.2
        · exact hr.len f
    · rw [if_neg hc]
      by_cases h1 : idx ≥ d.maxFilters
      · rw [if_pos h1]; exact ⟨hr, rfl⟩
      · rw [if_neg h1, if_pos (by omega)]; exact ⟨hr, rfl⟩
  | initFilters rows cols m =>
    obtain ⟨h1, h2⟩ := initFilters_ok hr rows cols m
    simp only [Ic.step, Sys.step]
    by_cases hc : rows ≤ d.maxFilters ∧ cols ≤ d.maxLen
    · obtain ⟨s', g1, g2⟩ := h2 hc
      rw [g1, if_pos hc]; exact ⟨g2, rfl⟩
    · rw [h1 hc, if_neg hc]; exact ⟨hr, rfl⟩
  | clearFilters =>
    obtain ⟨h1, -⟩ := forward_ok hr (.clearFilters : Crossfade.Op K F) trivial (by simp)
    refine ⟨⟨h1.conv, h1.linear, ?_, ?_, hr.filterRows, hr.interpolants⟩, rfl⟩
    · intro f _
      exact rowHolds_zero h1.shape
    · intro f; exact Nat.zero_le _
  | clearInterpolants =>
    obtain ⟨h1, -⟩ := forward_ok hr (.clearFilters : Crossfade.Op K F) trivial (by simp)
    exact ⟨h1, rfl⟩
  | setInterpolant p start =>
    obtain ⟨h1, h2, h3⟩ := setInterpolant_ok hi hr p hop start
    simp only [Ic.step, Sys.step]
    cases ht : t.setInterpolant d p start with
    | ok t' => obtain ⟨s', g1, g2⟩ := h2 t' ht; rw [g1]; exact ⟨g2, rfl⟩
    | throw e => rw [h1 e ht]; exact ⟨hr, rfl⟩
    | ub => exact absurd ht h3
  | setInterpolants ps start =>
    obtain ⟨h1, h2⟩ := setInterpolants_ok hi start ps hr hop
    simp only [Ic.step, Sys.step]
    exact ⟨h1, by rw [h2]⟩
  | setRouting e => exact forward_ok hr _ hop (by simp)
  | removeRouting i o => exact absurd hop id
  | clearRoutings => exact forward_ok hr _ trivial (by simp)
  | initRoutings es => exact forward_ok hr _ hop (by simp)
  | process data => exact forward_ok hr _ trivial (by simp)

/-! ### Construction -/

theorem xf_create_fft {inputs outputs block maxLen maxRoutings maxFilters transition rows cols align : Nat}
    {routings : List (Entry K)} {m : Nat → Nat → K} {fft : Fft K F} {s : Crossfade.Xf K F}
    (h : Crossfade.Xf.create inputs outputs block maxLen maxRoutings maxFilters transition routings rows cols m align fft =
      .ok s) (h0 : rows = 0) : s.core.fft = fft := by
  subst h0
  unfold Crossfade.Xf.create at h
  cases hc : Core.create inputs outputs block maxLen (2 * maxFilters) 0 cols m align fft with
  | ok c =>
    have hf : c.fft = fft := by
      unfold Core.create Core.initFilters at hc
      split_ifs at hc
      simp only [Core.clearFilters] at hc
      split_ifs at hc
      simp only [Convolver.initLoop] at hc
      injection hc with hc
      rw [← hc]
    rw [hc] at h
    simp only at h
    split at h
    · injection h with h; rw [← h]; exact hf
    · cases h
    · cases h
  | throw e => rw [hc] at h; cases h
  | ub => rw [hc] at h; cases h

theorem create_ok (inputs outputs block maxLen maxRoutings maxFilters interpolants T : Nat) (hb : 0 < block)
    (hm : 0 < maxLen) (hi : 0 < interpolants) {fft : Fft K F} (hlaw : Law block fft) (hlin : FwdLinear block fft)
    (routings : List (Entry K)) (hrt : ∀ e ∈ routings, e.filter < maxRoutings) (initial : List (InterpParam.Param K))
    (hini : ∀ p ∈ initial, ParamOK (inForce inputs outputs block maxLen maxRoutings maxFilters interpolants) p)
    (rows cols : Nat) (m : Nat → Nat → K) (align : Nat) {s : Ic K F}
    (hs : Ic.create inputs outputs block maxLen maxRoutings maxFilters interpolants T routings initial rows cols m align fft =
      .ok s) :
    let d := inForce inputs outputs block maxLen maxRoutings maxFilters interpolants
    Rep d T s ((Sys.init d T routings rows cols m).setInterpolants d false initial).1 ∧
      ((Sys.init d T routings rows cols m).setInterpolants d false initial).2 = .ok () := by
  intro d
  unfold Ic.create at hs
  cases hc : Crossfade.Xf.create inputs outputs block maxLen maxFilters maxRoutings T routings 0 0 (fun _ _ => (0 : K)) align
      fft with
  | ok c =>
    rw [hc] at hs
    have hrep : Crossfade.Rep d.dims T c (Crossfade.Sys.init d.dims T routings 0 0 fun _ _ => 0) :=
      Crossfade.create_ok d.dims T hb hm hlaw routings hrt 0 0 (Nat.zero_le _) _ align hc
    have hr0 : Rep d T (⟨c, fun _ _ => 0, maxFilters, interpolants⟩ : Ic K F)
        ⟨fun _ => [], Crossfade.Sys.init d.dims T routings 0 0 fun _ _ => 0⟩ :=
      ⟨hrep, by show FwdLinear block c.core.fft; rw [xf_create_fft hc rfl]; exact hlin,
        fun f _ => rowHolds_zero hrep.core.shape, fun _ => Nat.zero_le _, rfl, rfl⟩
    obtain ⟨h1, h2⟩ := initFilters_ok hr0 rows cols m
    by_cases hf : rows ≤ d.maxFilters ∧ cols ≤ d.maxLen
    · obtain ⟨s1, g1, g2⟩ := h2 hf
      simp only [g1] at hs
      obtain ⟨k1, k2⟩ := setInterpolants_ok hi false initial g2 hini
      rcases hset : s1.setInterpolants false initial with ⟨s2, o⟩
      rw [hset] at hs k1 k2
      cases o with
      | ok u =>
        simp only at hs
        injection hs with hs
        subst hs
        exact ⟨k1, k2.symm⟩
      | throw e => simp at hs
      | ub => simp at hs
    · simp only [h1 hf] at hs; cases hs
  | throw e => rw [hc] at hs; simp at hs
  | ub => rw [hc] at hs; simp at hs

/-! ### Property theorems -/

/-- The stream theorem for every linear transform that satisfies the convolution law. -/
theorem interpolation_stream_law {inputs outputs block maxLen maxRoutings maxFilters interpolants T : Nat} (hb : 0 < block)
    (hm : 0 < maxLen) (hi : 0 < interpolants) {fft : Fft K F} (hlaw : Law block fft) (hlin : FwdLinear block fft)
    {d : Limits} (hd : d = inForce inputs outputs block maxLen maxRoutings maxFilters interpolants)
    (routings : List (Entry K)) (hrt : ∀ e ∈ routings, e.filter < maxRoutings) (initial : List (InterpParam.Param K))
    (hini : ∀ p ∈ initial, ParamOK d p) (rows cols : Nat) (m : Nat → Nat → K) (align : Nat) {s : Ic K F}
    (hs : Ic.create inputs outputs block maxLen maxRoutings maxFilters interpolants T routings initial rows cols m align fft =
      .ok s) (past : List (Op K)) (op : Op K) (hpast : ∀ o ∈ past, OpOK d o) (hop : OpOK d op) :
    ((final Ic.step s past).step op).2 =
      (Sys.step F d T (final (Sys.step F d T)
        ((Sys.init d T routings rows cols m).setInterpolants d false initial).1 past) op).2 := by
  subst hd
  have key : ∀ (past : List (Op K)) (s : Ic K F) (t : Sys K),
      Rep (inForce inputs outputs block maxLen maxRoutings maxFilters interpolants) T s t →
      (∀ o ∈ past, OpOK (inForce inputs outputs block maxLen maxRoutings maxFilters interpolants) o) →
      Rep (inForce inputs outputs block maxLen maxRoutings maxFilters interpolants) T (final Ic.step s past)
        (final (Sys.step F (inForce inputs outputs block maxLen maxRoutings maxFilters interpolants) T) t past) := by
    intro past
    induction past with
    | nil => intro s t h _; exact h
    | cons o past ih =>
      intro s t h ho
      rw [final_cons, final_cons]
      exact ih _ _ (step_ok hi h o (ho o (by simp))).1 (fun x hx => ho x (by simp [hx]))
  exact (step_ok hi (key past s _ (create_ok inputs outputs block maxLen maxRoutings maxFilters interpolants T hb hm hi hlaw hlin
    routings hrt initial hini rows cols m align hs).1 hpast) op hop).2

/-- **C68.** Real signals, with a library that computes the discrete Fourier transform: after any history of calls, every call
of an interpolating convolver returns what the specification returns, with the limits that are in force (which are not the
documented ones, see `routing_limit_wrong`). The slots hold blends of the impulse responses in the database at the time of
`setInterpolant`, and are crossfaded. Missing: calls outside `OpOK`. -/
theorem interpolation_stream_partial {inputs outputs block maxLen maxRoutings maxFilters interpolants T : Nat} (hb : 0 < block)
    (hm : 0 < maxLen) (hi : 0 < interpolants) {fft : Fft ℝ ℂ} (hfft : IsDft block fft) {d : Limits}
    (hd : d = inForce inputs outputs block maxLen maxRoutings maxFilters interpolants)
    (routings : List (Entry ℝ)) (hrt : ∀ e ∈ routings, e.filter < maxRoutings) (initial : List (InterpParam.Param ℝ))
    (hini : ∀ p ∈ initial, ParamOK d p) (rows cols : Nat) (m : Nat → Nat → ℝ) (align : Nat) {s : Ic ℝ ℂ}
    (hs : Ic.create inputs outputs block maxLen maxRoutings maxFilters interpolants T routings initial rows cols m align fft =
      .ok s) (past : List (Op ℝ)) (op : Op ℝ) (hpast : ∀ o ∈ past, OpOK d o) (hop : OpOK d op) :
    ((final Ic.step s past).step op).2 =
      (Sys.step ℂ d T (final (Sys.step ℂ d T)
        ((Sys.init d T routings rows cols m).setInterpolants d false initial).1 past) op).2 :=
  interpolation_stream_law hb hm hi (isDft_law hb hfft) (isDft_linear hfft) hd routings hrt initial hini rows cols m align hs past
    op hpast hop

/-- **C68, same limits.** If the database has as many filters as there are routings, the documented limits are in force; the id
of an interpolant is then either valid or rejected. -/
theorem interpolation_stream_documented {inputs outputs block maxLen size interpolants T : Nat} (hb : 0 < block)
    (hm : 0 < maxLen) (hi : 0 < interpolants) {fft : Fft ℝ ℂ} (hfft : IsDft block fft) {d : Limits}
    (hd : d = documented inputs outputs block maxLen size size interpolants)
    (routings : List (Entry ℝ)) (hrt : ∀ e ∈ routings, e.filter < size) (initial : List (InterpParam.Param ℝ))
    (hini : ∀ p ∈ initial, p.indices.length = p.weights.length) (rows cols : Nat) (m : Nat → Nat → ℝ) (align : Nat)
    {s : Ic ℝ ℂ}
    (hs : Ic.create inputs outputs block maxLen size size interpolants T routings initial rows cols m align fft = .ok s)
    (past : List (Op ℝ)) (op : Op ℝ) (hpast : ∀ o ∈ past, OpOK d o) (hop : OpOK d op) :
    ((final Ic.step s past).step op).2 =
      (Sys.step ℂ d T (final (Sys.step ℂ d T)
        ((Sys.init d T routings rows cols m).setInterpolants d false initial).1 past) op).2 := by
  refine interpolation_stream_partial hb hm hi hfft hd routings hrt initial ?_ rows cols m align hs past op hpast hop
  intro p hp
  refine ⟨hini p hp, ?_⟩
  subst hd
  show p.id < size ∨ size ≤ p.id
  omega

/-- **C68, the sound.** Convolution with a blend is the weighted sum of the convolutions with the stored filters. -/
theorem blend_sound {len : Nat} {filters : Nat → List K} (p : InterpParam.Param K) (h : ∀ f, (filters f).length ≤ len)
    (x : List K) (n : Nat) :
    conv (blend len filters p) x n = ((p.indices.zip p.weights).map fun t => t.2 * conv (filters t.1) x n).sum := by
  have hpad : ∀ f, conv (filters f) x n =
      ∑ t ∈ Finset.range len, (filters f).getD t 0 * (if t ≤ n then x.getD (n - t) 0 else 0) := by
    intro f
    unfold conv
    apply Finset.sum_subset
    · intro t ht; simp only [Finset.mem_range] at ht ⊢; have := h f; omega
    · intro t _ ht
      simp only [Finset.mem_range] at ht
      rw [getD_zero_of_le _ _ (by omega), zero_mul]
  simp only [hpad]
  unfold conv
  rw [blend_length]
  simp only [blend_getD p h]
  generalize p.indices.zip p.weights = xs
  induction xs with
  | nil => simp
  | cons y ys ih =>
    simp only [List.map_cons, List.sum_cons, add_mul, Finset.sum_add_distrib, ih, Finset.mul_sum]
    congr 1
    apply Finset.sum_congr rfl
    intro t _
    ring

/-! ### Limits -/

theorem setInterpolant_id {s : Ic K F} {p : InterpParam.Param K} (h : s.maxNumberOfRoutingPoints ≤ p.id) (start : Bool) :
    s.setInterpolant p start = .throw .outOfRange := by
  unfold Ic.setInterpolant
  rw [if_pos h]

/-- **C68, finding.** The limit of the routings and of the ids of interpolants is the number of stored filters: an id that is
valid according to the documentation is rejected, also after any history of calls. -/
theorem routing_limit_wrong {inputs outputs block maxLen maxRoutings maxFilters interpolants T : Nat} (hb : 0 < block)
    (hm : 0 < maxLen) (hi : 0 < interpolants) {fft : Fft ℝ ℂ} (hfft : IsDft block fft)
    (rows cols : Nat) (m : Nat → Nat → ℝ) (align : Nat) {s : Ic ℝ ℂ}
    (hs : Ic.create inputs outputs block maxLen maxRoutings maxFilters interpolants T [] [] rows cols m align fft = .ok s)
    (past : List (Op ℝ))
    (hpast : ∀ o ∈ past, OpOK (inForce inputs outputs block maxLen maxRoutings maxFilters interpolants) o)
    (p : InterpParam.Param ℝ) (hl : p.indices.length = p.weights.length) (h : maxFilters ≤ p.id) (start : Bool) :
    ((final Ic.step s past).step (.setInterpolant p start)).2 = .throw .outOfRange := by
  rw [interpolation_stream_partial hb hm hi hfft rfl [] (by simp) [] (by simp) rows cols m align hs past (.setInterpolant p start) hpast
    ⟨hl, Or.inr h⟩]
  simp only [Sys.step, Sys.setInterpolant]
  rw [if_pos (show p.id ≥ (inForce inputs outputs block maxLen maxRoutings maxFilters interpolants).maxRoutings from h)]

/-- **C68, finding.** An id between the number of routings and the number of stored filters is not rejected but leads to
undefined behaviour. -/
theorem interpolant_id_ub {inputs outputs block maxLen maxRoutings maxFilters interpolants T : Nat} (hb : 0 < block)
    (hm : 0 < maxLen) (hi : 0 < interpolants) {fft : Fft K F} (hlaw : Law block fft) (hlin : FwdLinear block fft)
    (rows cols : Nat) (m : Nat → Nat → K) (align : Nat) {s : Ic K F}
    (hs : Ic.create inputs outputs block maxLen maxRoutings maxFilters interpolants T [] [] rows cols m align fft = .ok s)
    (p : InterpParam.Param K) (hl : p.indices.length = p.weights.length) (hn : p.weights.length = interpolants)
    (hidx : ∀ i ∈ p.indices, i < maxFilters) (h1 : maxRoutings ≤ p.id) (h2 : p.id < maxFilters) (start : Bool) :
    (s.step (.setInterpolant p start)).2 = .ub := by
  obtain ⟨hr, -⟩ := create_ok inputs outputs block maxLen maxRoutings maxFilters interpolants T hb hm hi hlaw hlin []
    (by simp) [] (by simp) rows cols m align hs
  have hcap : s.maxNumberOfRoutingPoints = maxFilters := hr.capacity
  have hrows : s.filterRows = maxFilters := hr.filterRows
  have hint : s.interpolants = interpolants := hr.interpolants
  have hslots : s.conv.maxFilters = maxRoutings := hr.conv.maxFilters
  simp only [Ic.step, Ic.setInterpolant]
  rw [if_neg (by omega), if_neg (by unfold InterpParam.numberOfInterpolants; omega)]
  cases hm : p.indices.max? with
  | none =>
    rw [List.max?_eq_none_iff.mp hm] at hl; simp at hl; omega
  | some mx =>
    have hmem := (List.max?_eq_some_iff.mp hm).1
    simp only
    rw [if_neg (by have := hidx mx hmem; omega)]
    obtain ⟨fd, g1, -⟩ := mixLoop_ok s p hl (s.interpolants - 1) (by omega)
    rw [g1]
    simp only [Crossfade.Xf.setTransformedFilter]
    rw [if_pos (by omega)]
    rfl

/-- **C68, finding.** A convolver with zero interpolants can be constructed, but setting an interpolant with a valid id is
undefined behaviour. -/
theorem no_interpolants_ub (s : Ic K F) (h0 : s.interpolants = 0) (id : Nat) (hid : id < s.maxNumberOfRoutingPoints)
    (start : Bool) : (s.step (.setInterpolant ⟨id, [], []⟩ start)).2 = .ub := by
  simp only [Ic.step, Ic.setInterpolant, InterpParam.numberOfInterpolants]
  rw [if_neg (by simpa using hid), if_neg (by simp [h0])]
  rfl

/-! ### The component -/

/-- The calls which the pending messages ask for: first the new filters, then the interpolants, each of which starts a
transition. -/
def IFir.calls (s : IFir K F) : List (Op K) :=
  s.filters.map (fun m => .setImpulseResponse m.value m.index) ++ s.interpolants.map (fun p => .setInterpolant p true)

theorem attempt_ok {s : Ic K F} {o : Outcome (Ic K F)} {x : Res K} (h : (s.attempt o).2 = .ok x) :
    ∃ s', o = .ok s' ∧ (s.attempt o).1 = s' := by
  cases o with
  | ok s' => exact ⟨s', rfl, rfl⟩
  | throw e => cases h
  | ub => cases h

theorem filterLoop_ok {q : List (FirMatrix.FilterMsg K)} {c : Ic K F} (hne : ∀ m ∈ q, m.value ≠ [])
    (h : FirMatrix.AllOk Ic.step c (q.map (fun m => .setImpulseResponse m.value m.index))) :
    FirMatrix.filterLoop Ic.setImpulseResponse q c =
      (.ok (), [], final Ic.step c (q.map (fun m => .setImpulseResponse m.value m.index))) := by
  induction q generalizing c with
  | nil => rfl
  | cons m q ih =>
    obtain ⟨⟨x, hx⟩, h2⟩ := FirMatrix.allOk_cons h
    obtain ⟨s', g1, g2⟩ := attempt_ok hx
    have g2 : (c.step (.setImpulseResponse m.value m.index)).1 = s' := g2
    simp only [FirMatrix.filterLoop, g1, List.map_cons, final_cons]
    rw [if_neg (hne m (by simp))]
    rw [g2] at h2 ⊢
    exact ih (fun x hx => hne x (by simp [hx])) h2

theorem interpolantLoop_ok {q : List (InterpParam.Param K)} {c : Ic K F}
    (h : FirMatrix.AllOk Ic.step c (q.map (fun p => .setInterpolant p true))) :
    interpolantLoop q c = (.ok (), [], final Ic.step c (q.map (fun p => .setInterpolant p true))) := by
  induction q generalizing c with
  | nil => rfl
  | cons p q ih =>
    obtain ⟨⟨x, hx⟩, h2⟩ := FirMatrix.allOk_cons h
    obtain ⟨s', g1, g2⟩ := attempt_ok hx
    have g2 : (c.step (.setInterpolant p true)).1 = s' := g2
    simp only [interpolantLoop, g1, List.map_cons, final_cons]
    rw [g2] at h2 ⊢
    exact ih h2

/-- **C68, messages.** If the convolver accepts the pending messages (and no impulse response is empty), `process()` consumes
all of them, makes exactly the calls they ask for, filters before interpolants, and then filters the input. -/
theorem messages_applied_partial (s : IFir K F) (input : Nat → Nat → K) (hne : ∀ m ∈ s.filters, m.value ≠ [])
    (h : FirMatrix.AllOk Ic.step s.conv s.calls) :
    s.process input =
      (⟨((final Ic.step s.conv s.calls).step (.process input)).1, [], []⟩,
        ((final Ic.step s.conv s.calls).step (.process input)).2) := by
  rcases s with ⟨c, q, ps⟩
  simp only [IFir.calls] at h ⊢
  obtain ⟨h1, h2⟩ := FirMatrix.allOk_append h
  simp only [IFir.process, filterLoop_ok hne h1, interpolantLoop_ok h2, final_append]

/-- An interpolant the convolver rejects: an id that is too large, a wrong number of terms, or an index that is not in the
database. -/
def Rejected (c : Ic K F) (p : InterpParam.Param K) : Prop :=
  c.maxNumberOfRoutingPoints ≤ p.id ∨ p.weights.length ≠ c.interpolants ∨ (∃ i ∈ p.indices, c.filterRows ≤ i)

theorem rejected_throws {c : Ic K F} {p : InterpParam.Param K} (h : Rejected c p) (start : Bool) :
    ∀ s', c.setInterpolant p start ≠ .ok s' := by
  intro s' hs
  unfold Ic.setInterpolant InterpParam.numberOfInterpolants at hs
  by_cases h1 : p.id ≥ c.maxNumberOfRoutingPoints
  · rw [if_pos h1] at hs; cases hs
  · rw [if_neg h1] at hs
    by_cases h2 : p.weights.length ≠ c.interpolants
    · rw [if_pos h2] at hs; cases hs
    · rw [if_neg h2] at hs
      rcases h with h | h | h
      · omega
      · exact h2 h
      · cases hm : p.indices.max? with
        | none => rw [hm] at hs; cases hs
        | some mx =>
          rw [hm] at hs
          simp only at hs
          rw [if_pos ((max_bound hm _).mpr h)] at hs
          cases hs

/-- The sizes of a convolver. -/
def Sized (c c' : Ic K F) : Prop :=
  c'.maxNumberOfRoutingPoints = c.maxNumberOfRoutingPoints ∧ c'.interpolants = c.interpolants ∧ c'.filterRows = c.filterRows

theorem Sized.rejected {c c' : Ic K F} (h : Sized c c') {p : InterpParam.Param K} (hp : Rejected c p) : Rejected c' p := by
  unfold Rejected; rw [h.1, h.2.1, h.2.2]; exact hp

theorem setImpulseResponse_sized {c c' : Ic K F} {ir : List K} {i : Nat} (h : c.setImpulseResponse ir i = .ok c') :
    Sized c c' := by
  unfold Ic.setImpulseResponse at h
  split_ifs at h
  split at h
  · injection h with h; subst h; exact ⟨rfl, rfl, rfl⟩
  · cases h
  · cases h

theorem filterLoop_sized (q : List (FirMatrix.FilterMsg K)) (c : Ic K F) :
    Sized c (FirMatrix.filterLoop Ic.setImpulseResponse q c).2.2 := by
  induction q generalizing c with
  | nil => exact ⟨rfl, rfl, rfl⟩
  | cons m q ih =>
    simp only [FirMatrix.filterLoop]
    split_ifs with hv
    · exact ⟨rfl, rfl, rfl⟩
    · cases hs : c.setImpulseResponse m.value m.index with
      | ok c' =>
        obtain ⟨a1, a2, a3⟩ := setImpulseResponse_sized hs
        obtain ⟨b1, b2, b3⟩ := ih c'
        exact ⟨b1.trans a1, b2.trans a2, b3.trans a3⟩
      | throw e => cases e <;> exact ⟨rfl, rfl, rfl⟩
      | ub => exact ⟨rfl, rfl, rfl⟩

theorem interpolantLoop_bad {c : Ic K F} {p : InterpParam.Param K} (h : Rejected c p) (q : List (InterpParam.Param K)) :
    (∀ x, (interpolantLoop (p :: q) c).1 ≠ .ok x) ∧ (interpolantLoop (p :: q) c).2 = (p :: q, c) := by
  simp only [interpolantLoop]
  cases hs : c.setInterpolant p true with
  | ok s' => exact absurd hs (rejected_throws h true s')
  | throw e => cases e <;> exact ⟨fun x => by simp, rfl⟩
  | ub => exact ⟨fun x => by simp, rfl⟩

theorem bad_step (s : IFir K F) (p : InterpParam.Param K) (q : List (InterpParam.Param K)) (hq : s.interpolants = p :: q)
    (hp : Rejected s.conv p) (input : Nat → Nat → K) :
    (∀ x, (s.process input).2 ≠ .ok x) ∧ (s.process input).1.interpolants = p :: q ∧
      Rejected (s.process input).1.conv p := by
  rcases s with ⟨c, f, ps⟩
  simp only at hq hp
  subst hq
  have hsz := filterLoop_sized f c
  simp only [IFir.process]
  rcases hf : FirMatrix.filterLoop Ic.setImpulseResponse f c with ⟨o, q1, c1⟩
  rw [hf] at hsz
  have hp1 : Rejected c1 p := hsz.rejected hp
  cases o with
  | throw e => exact ⟨fun x => by simp, rfl, hp1⟩
  | ub => exact ⟨fun x => by simp, rfl, hp1⟩
  | ok u =>
    obtain ⟨g1, g2⟩ := interpolantLoop_bad hp1 q
    rcases hl : interpolantLoop (p :: q) c1 with ⟨o, q2, c2⟩
    rw [hl] at g1 g2
    simp only [Prod.mk.injEq] at g2
    obtain ⟨rfl, rfl⟩ := g2
    simp only [hl]
    cases o with
    | throw e => exact ⟨fun x => by simp, rfl, hp1⟩
    | ub => exact ⟨fun x => by simp, rfl, hp1⟩
    | ok u => exact absurd rfl (g1 u)

/-- **C68, finding.** After a rejected interpolant no call of `process()` succeeds any more, whatever messages arrive
afterwards: the message stays at the head of the queue. -/
theorem bad_interpolant_blocks (s : IFir K F) (p : InterpParam.Param K) (q : List (InterpParam.Param K))
    (hq : s.interpolants = p :: q) (hp : Rejected s.conv p)
    (hist : List (List (FirMatrix.FilterMsg K) × List (InterpParam.Param K) × (Nat → Nat → K)))
    (f : List (FirMatrix.FilterMsg K)) (ps : List (InterpParam.Param K)) (input : Nat → Nat → K) :
    ∀ x, ((hist.foldl (fun s a => (s.period a.1 a.2.1 a.2.2).1) s).period f ps input).2 ≠ .ok x := by
  induction hist generalizing s q with
  | nil =>
    exact (bad_step { s with filters := s.filters ++ f, interpolants := s.interpolants ++ ps } p (q ++ ps)
      (by simp [hq]) hp input).1
  | cons a hist ih =>
    rw [List.foldl_cons]
    obtain ⟨-, h1, h2⟩ := bad_step { s with filters := s.filters ++ a.1, interpolants := s.interpolants ++ a.2.1 } p
      (q ++ a.2.1) (by simp [hq]) hp a.2.2
    exact ih _ (q ++ a.2.1) h1 h2

/-! ### Examples -/

theorem fft2_linear : FwdLinear 1 fft2 where
  add := by intro x y k hk; interval_cases k <;> simp [fft2] <;> ring
  smul := by intro g x k hk; interval_cases k <;> simp [fft2] <;> ring

/-- A database with the filters `2` and `6`; the slot is switched to a blend with the weights `1/4` and `3/4`, with a transition
of two samples from silence. Input `1`: the outputs are `5/2` and `5`; replacing filter 0 afterwards has no effect. -/
example : ∃ s, Ic.create 1 1 1 1 1 2 2 2 [⟨0, 0, 0, (1 : ℚ)⟩] [] 2 1 (fun f _ => if f = 0 then 2 else 6) 0 fft2 = .ok s ∧
    ((final Ic.step s [.setInterpolant ⟨0, [0, 1], [1/4, 3/4]⟩ true]).step (.process fun _ _ => 1)).2 =
      .ok (.signals [[5/2]]) ∧
    ((final Ic.step s [.setInterpolant ⟨0, [0, 1], [1/4, 3/4]⟩ true, .process fun _ _ => 1, .setImpulseResponse [9] 0]).step
      (.process fun _ _ => 1)).2 = .ok (.signals [[5]]) := by
  refine ⟨_, rfl, ?_, ?_⟩
  · exact (interpolation_stream_law (inputs := 1) (outputs := 1) (block := 1) (maxLen := 1) (interpolants := 2) (maxRoutings := 1) (maxFilters := 2) (T := 2) (by decide) (by decide) (by decide) fft2_law
      fft2_linear rfl [⟨0, 0, 0, (1 : ℚ)⟩] (by simp) [] (by simp) 2 1 (fun f _ => if f = 0 then 2 else 6) 0 rfl
      [.setInterpolant ⟨0, [0, 1], [1/4, 3/4]⟩ true] (.process fun _ _ => 1) (by simp [OpOK, ParamOK, inForce]) trivial).trans
      (by
        simp [final, run, Sys.step, Sys.init, Sys.setInterpolants, Sys.setInterpolant, Sys.forward, inForce, Limits.dims, blend,
          Crossfade.Sys.step, Crossfade.Sys.init, Crossfade.Sys.setFilter, Crossfade.Sys.sample, Crossfade.weight, replaceRoutes,
          setRoutes, setRoute, Dims.admits, others, conv, rowFilters]
        norm_num)
  · exact (interpolation_stream_law (inputs := 1) (outputs := 1) (block := 1) (maxLen := 1) (interpolants := 2) (maxRoutings := 1) (maxFilters := 2) (T := 2) (by decide) (by decide) (by decide) fft2_law
      fft2_linear rfl [⟨0, 0, 0, (1 : ℚ)⟩] (by simp) [] (by simp) 2 1 (fun f _ => if f = 0 then 2 else 6) 0 rfl
      [.setInterpolant ⟨0, [0, 1], [1/4, 3/4]⟩ true, .process fun _ _ => 1, .setImpulseResponse [9] 0]
      (.process fun _ _ => 1) (by simp [OpOK, ParamOK, inForce]) trivial).trans
      (by
        simp [final, run, Sys.step, Sys.init, Sys.setInterpolants, Sys.setInterpolant, Sys.forward, inForce, Limits.dims, blend,
          Crossfade.Sys.step, Crossfade.Sys.init, Crossfade.Sys.setFilter, Crossfade.Sys.sample, Crossfade.weight, replaceRoutes,
          setRoutes, setRoute, Dims.admits, others, conv, rowFilters]
        norm_num)

/-- Two routings are allowed but only one filter is stored: the second routing is rejected although the documented limits
admit it. -/
example : ∃ s, Ic.create 2 1 1 1 2 1 1 0 [] [] 1 1 (fun _ _ => (2 : ℚ)) 0 fft2 = .ok s ∧
    (s.step (.setRouting ⟨0, 0, 0, 1⟩)).2 = .ok .unit ∧
    ((final Ic.step s [.setRouting ⟨0, 0, 0, 1⟩]).step (.setRouting ⟨1, 0, 1, 1⟩)).2 = .throw .invalidArgument ∧
    (Sys.step ℚ (documented 2 1 1 1 2 1 1) 0 (final (Sys.step ℚ (documented 2 1 1 1 2 1 1) 0)
      (Sys.init (documented 2 1 1 1 2 1 1) 0 [] 1 1 fun _ _ => (2 : ℚ)) [.setRouting ⟨0, 0, 0, 1⟩])
      (.setRouting ⟨1, 0, 1, 1⟩)).2 = .ok .unit := by
  refine ⟨_, rfl, rfl, rfl, ?_⟩
  simp [final, run, Sys.step, Sys.forward, Sys.init, documented, Limits.dims, Crossfade.Sys.step, Crossfade.Sys.init,
    replaceRoutes, setRoutes, setRoute, Dims.admits, others]

/-- Hypotheses of `interpolant_id_ub`: one routing, two filters, id 1. -/
example : ∃ s, Ic.create 1 1 1 1 1 2 1 0 [] [] 0 0 (fun _ _ => (2 : ℚ)) 0 fft2 = .ok s ∧
    (s.step (.setInterpolant ⟨1, [0], [1]⟩ true)).2 = .ub := by
  refine ⟨_, rfl, ?_⟩
  exact interpolant_id_ub (maxRoutings := 1) (maxFilters := 2) (T := 0) (by decide) (by decide) (by decide) fft2_law fft2_linear
    0 0 (fun _ _ => (2 : ℚ)) 0 rfl ⟨1, [0], [1]⟩ rfl rfl (by simp) (by decide) (by decide) true

/-- Hypotheses of `no_interpolants_ub`. -/
example : ∃ s, Ic.create 1 1 1 1 1 1 0 0 [] [] 0 0 (fun _ _ => (2 : ℚ)) 0 fft2 = .ok s ∧ s.interpolants = 0 ∧
    0 < s.maxNumberOfRoutingPoints := ⟨_, rfl, rfl, by decide⟩

/-- A component with one filter and one interpolant message: both are applied before the input is filtered. -/
example : ∃ s, Ic.create 1 1 1 1 1 1 1 0 [⟨0, 0, 0, (1 : ℚ)⟩] [] 0 0 (fun _ _ => (2 : ℚ)) 0 fft2 = .ok s ∧
    (IFir.process ⟨s, [⟨0, [3]⟩], [⟨0, [0], [2]⟩]⟩ (fun _ _ => 1)).2 =
      ((final Ic.step s [.setImpulseResponse [3] 0, .setInterpolant ⟨0, [0], [2]⟩ true]).step (.process fun _ _ => 1)).2 := by
  refine ⟨_, rfl, ?_⟩
  rw [messages_applied_partial _ _ (by simp)]
  · rfl
  · simp only [IFir.calls, FirMatrix.AllOk, List.map_cons, List.map_nil, List.cons_append, List.nil_append]
    intro r hr
    simp only [run, List.mem_cons, List.not_mem_nil, or_false] at hr
    rcases hr with rfl | rfl
    · exact ⟨_, rfl⟩
    · exact ⟨_, rfl⟩

end Visr.InterpConvolver
