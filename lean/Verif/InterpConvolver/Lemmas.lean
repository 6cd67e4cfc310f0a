import Verif.InterpConvolver.Spec
import Verif.Crossfade.Props

/-! # Lemmas for the interpolating convolver -/

set_option linter.unusedSectionVars false

namespace Visr.InterpConvolver
open Visr Visr.Convolver

variable {K F : Type} [Field K] [Field F] [Algebra K F]

/-- Linearity of the forward transform. -/
structure FwdLinear (L : Nat) (fft : Fft K F) : Prop where
  add : ∀ x y : Nat → K, ∀ k ≤ L, fft.fwd (fun i => x i + y i) k = fft.fwd x k + fft.fwd y k
  smul : ∀ (g : K) (x : Nat → K), ∀ k ≤ L, fft.fwd (fun i => g * x i) k = algebraMap K F g * fft.fwd x k

/-- The discrete Fourier transform is linear. -/
theorem isDft_linear {L : Nat} {fft : Fft ℝ ℂ} (h : IsDft L fft) : FwdLinear L fft where
  add := by
    intro x y k hk
    rw [h.fwd _ k hk, h.fwd _ k hk, h.fwd _ k hk, ← Finset.sum_add_distrib]
    apply Finset.sum_congr rfl
    intro i _
    push_cast; ring
  smul := by
    intro g x k hk
    rw [h.fwd _ k hk, h.fwd _ k hk, Finset.mul_sum]
    apply Finset.sum_congr rfl
    intro i _
    rw [Complex.coe_algebraMap]
    push_cast; ring

/-! ### The blend -/

theorem blend_getD {len : Nat} {filters : Nat → List K} (p : InterpParam.Param K) (h : ∀ f, (filters f).length ≤ len)
    (n : Nat) :
    (blend len filters p).getD n 0 = ((p.indices.zip p.weights).map fun x => x.2 * (filters x.1).getD n 0).sum := by
  unfold blend
  rw [List.getD_eq_getElem?_getD, List.getElem?_map]
  by_cases hn : n < len
  · rw [List.getElem?_range hn]; rfl
  · rw [List.getElem?_eq_none (by simp; omega)]
    have : ((p.indices.zip p.weights).map fun x => x.2 * (filters x.1).getD n 0) =
        (p.indices.zip p.weights).map fun _ => (0 : K) := by
      apply List.map_congr_left
      intro x _
      rw [getD_zero_of_le _ _ (by have := h x.1; omega), mul_zero]
    rw [this]; simp

theorem blend_length (len : Nat) (filters : Nat → List K) (p : InterpParam.Param K) : (blend len filters p).length = len := by
  simp [blend]

/-- Time-domain partition of a weighted sum. -/
theorem fwd_sum {L : Nat} {fft : Fft K F} (hl : FwdLinear L fft) (hz : ∀ k ≤ L, fft.fwd (fun _ => 0) k = 0) (k : Nat)
    (hk : k ≤ L) (xs : List (Nat × K)) (g : Nat → Nat → K) :
    fft.fwd (fun i => (xs.map fun x => x.2 * g x.1 i).sum) k =
      (xs.map fun x => algebraMap K F x.2 * fft.fwd (g x.1) k).sum := by
  induction xs with
  | nil => simpa using hz k hk
  | cons x xs ih =>
    simp only [List.map_cons, List.sum_cons]
    rw [hl.add (fun i => x.2 * g x.1 i) (fun i => (xs.map fun x => x.2 * g x.1 i).sum) k hk, ih, hl.smul _ _ k hk]

theorem part_blend {L len : Nat} {scale : K} {filters : Nat → List K} (p : InterpParam.Param K)
    (h : ∀ f, (filters f).length ≤ len) (q i : Nat) :
    part L scale (blend len filters p) q i =
      ((p.indices.zip p.weights).map fun x => x.2 * part L scale (filters x.1) q i).sum := by
  unfold part
  by_cases hi : i < L
  · simp only [if_pos hi]
    rw [blend_getD p h, ← List.sum_map_mul_left]
    congr 1
    apply List.map_congr_left
    intro x _
    ring
  · simp only [if_neg hi, mul_zero]
    simp

/-- The weighted sum of the rows holds the blend. -/
theorem rowHolds_blend {c : Core K F} {L : Nat} (hs : Shape c L) (hl : FwdLinear L c.fft) {rows : Nat → Nat → F}
    {filters : Nat → List K} (p : InterpParam.Param K) (hlen : ∀ f, (filters f).length ≤ c.maxLen)
    (hrow : ∀ i ∈ p.indices, RowHolds c L (rows i) (filters i)) {fd : Nat → F}
    (hfd : ∀ k, fd k = ((p.indices.zip p.weights).map fun x => algebraMap K F x.2 * rows x.1 k).sum) :
    RowHolds c L fd (blend c.maxLen filters p) := by
  intro q hq k hk
  rw [hfd]
  have e : part L c.scale (blend c.maxLen filters p) q =
      fun i => ((p.indices.zip p.weights).map fun x => x.2 * part L c.scale (filters x.1) q i).sum := by
    funext i; exact part_blend p hlen q i
  rw [e, fwd_sum hl hs.law.zero k hk _ (fun f => part L c.scale (filters f) q)]
  congr 1
  apply List.map_congr_left
  intro x hx
  rw [hrow x.1 (List.of_mem_zip hx).1 q hq k hk]

/-- The interpolation loop adds the weighted rows. -/
theorem mixLoop_ok (s : Ic K F) (p : InterpParam.Param K) (hl : p.indices.length = p.weights.length) (n : Nat)
    (hn : n < p.weights.length) :
    ∃ fd, mixLoop s p n = .ok fd ∧ ∀ k, fd k =
      (((p.indices.zip p.weights).take (n + 1)).map fun x => algebraMap K F x.2 * s.filters x.1 k).sum := by
  have hw : ∀ j (hj : j < p.weights.length), InterpParam.weight p j = .ok p.weights[j] := by
    intro j hj; simp [InterpParam.weight, InterpParam.vecAt, hj]
  have hi : ∀ j (hj : j < p.indices.length), InterpParam.index p j = .ok p.indices[j] := by
    intro j hj; simp [InterpParam.index, InterpParam.vecAt, hj]
  have hz : (p.indices.zip p.weights).length = p.weights.length := by simp [hl]
  induction n with
  | zero =>
    refine ⟨fun k => algebraMap K F p.weights[0] * s.filters (p.indices[0]'(by omega)) k, ?_, ?_⟩
    · simp only [mixLoop]
      rw [hw 0 hn, hi 0 (by omega)]
    · intro k
      rw [List.take_succ_eq_append_getElem (by omega)]
      simp
  | succ n ih =>
    obtain ⟨fd, h1, h2⟩ := ih (by omega)
    refine ⟨fun k => fd k + algebraMap K F p.weights[n + 1] * s.filters (p.indices[n + 1]'(by omega)) k, ?_, ?_⟩
    · simp only [mixLoop]
      rw [h1, hw (n + 1) hn, hi (n + 1) (by omega)]
    · intro k
      rw [List.take_succ_eq_append_getElem (by omega), List.map_append, List.sum_append, ← h2 k]
      simp

/-! ### The running convolver -/

/-- A transformed filter is installed in a slot. -/
theorem rep_setRow {d : Dims} {T : Nat} {s : Crossfade.Xf K F} {t : Crossfade.Sys K} (hr : Crossfade.Rep d T s t)
    (ir : List K) (fd : Nat → F) (idx : Nat) (hidx : idx < d.entries) (start : Bool) (hl : ir.length ≤ d.maxLen)
    (hfd : RowHolds s.core d.block fd ir) :
    ∃ s', s.setTransformedFilter fd idx start = .ok s' ∧ Crossfade.Rep d T s' (t.setFilter ir idx start) ∧
      ∃ filt, s'.core = { s.core with filt := filt } := by
  obtain ⟨newSet, hset⟩ : ∃ n, n = if s.current idx = 0 then 1 else 0 := ⟨_, rfl⟩
  obtain ⟨newIdx, hnew⟩ : ∃ n, n = if newSet = 0 then idx else idx + d.entries := ⟨_, rfl⟩
  have hlt : newIdx < s.core.entries := by rw [hr.entries, hnew]; split_ifs <;> omega
  unfold Crossfade.Xf.setTransformedFilter Core.setFilter
  rw [if_neg (by rw [hr.maxFilters]; omega)]
  simp only [hr.maxFilters, ← hset, ← hnew]
  rw [if_neg (by omega)]
  refine ⟨_, rfl, Crossfade.rep_switch hr ir idx hidx hl start _ newSet newIdx hset hnew ?_, _, rfl⟩
  refine coreRep_setFilt hr.core _ _ ?_ ?_
  · intro f hf
    by_cases hfi : f = newIdx
    · simp only [hfi, if_true]
      intro p hp k hk
      have hpad := hr.core.shape.padded
      have hb : p * s.core.padded + k < s.core.padded * s.core.parts := by
        have : (p + 1) * s.core.padded ≤ s.core.parts * s.core.padded := Nat.mul_le_mul_right _ hp
        rw [Nat.add_mul, Nat.one_mul] at this
        rw [Nat.mul_comm s.core.padded]
        omega
      beta_reduce
      rw [if_pos hb]
      exact hfd p hp k hk
    · simp only [if_neg hfi]; exact hr.core.filt f hf
  · intro f
    by_cases hfi : f = newIdx
    · simp only [if_pos hfi]; rw [hr.maxLen]; exact hl
    · simp only [if_neg hfi]; exact hr.core.hlen f

/-- The members that determine the frequency-domain layout. -/
def SameLayout (c c' : Core K F) : Prop := c'.parts = c.parts ∧ c'.padded = c.padded ∧ c'.fft = c.fft ∧ c'.scale = c.scale ∧ c'.maxLen = c.maxLen

theorem SameLayout.refl (c : Core K F) : SameLayout c c := ⟨rfl, rfl, rfl, rfl, rfl⟩

theorem SameLayout.row {c c' : Core K F} (h : SameLayout c c') {L : Nat} {row : Nat → F} {ir : List K}
    (hr : RowHolds c L row ir) : RowHolds c' L row ir := by
  obtain ⟨h1, h2, h3, h4, -⟩ := h
  intro p hp k hk
  rw [h2, h3, h4]
  exact hr p (by omega) k hk

theorem processInputs_layout {c c' : Core K F} {data : Nat → Nat → K} (h : c.processInputs data = .ok c') : SameLayout c c' := by
  unfold Core.processInputs at h
  cases hb : c.buf.write data c.inputs c.block with
  | ok buf =>
    rw [hb] at h
    simp only [Core.advanceFDL] at h
    by_cases hp : c.parts = 0
    · rw [if_pos hp] at h; cases h
    · rw [if_neg hp] at h
      simp only at h
      split at h
      · injection h with h; rw [← h]; exact ⟨rfl, rfl, rfl, rfl, rfl⟩
      · cases h
      · cases h
  | throw e => rw [hb] at h; cases h
  | ub => rw [hb] at h; cases h

/-- Processing a block and changes of the routing table keep the layout. -/
theorem step_layout (s : Crossfade.Xf K F) (op : Crossfade.Op K F)
    (h : (∃ e, op = .setRouting e) ∨ op = .clearRoutings ∨ (∃ es, op = .initRoutings es) ∨ (∃ x, op = .process x) ∨
      op = .clearFilters) :
    SameLayout s.core (s.step op).1.core := by
  rcases h with ⟨e, rfl⟩ | rfl | ⟨es, rfl⟩ | ⟨x, rfl⟩ | rfl
  · exact SameLayout.refl _
  · exact SameLayout.refl _
  · exact SameLayout.refl _
  · simp only [Crossfade.Xf.step]
    cases hp : s.core.processInputs x with
    | ok c =>
      simp only [Crossfade.Xf.processOutputs]
      have := processInputs_layout hp
      split <;> exact this
    | throw e => exact SameLayout.refl _
    | ub => exact SameLayout.refl _
  · exact ⟨rfl, rfl, rfl, rfl, rfl⟩

/-! ### The database -/

theorem transform_ok {c : Core K F} {L : Nat} (hs : Shape c L) (ir : List K) (row : Nat → F) (h : ir.length ≤ c.maxLen) :
    ∃ r, c.transformImpulseResponse ir row = .ok r ∧ RowHolds c L r ir := by
  unfold Core.transformImpulseResponse
  rw [if_neg (by omega)]
  exact ⟨_, rfl, fun p hp k hk => transformLoop_holds hs ir row c.parts p hp k hk⟩

theorem initLoop_ok {c : Core K F} {L : Nat} (hs : Shape c L) (cols : Nat) (m : Nat → Nat → K) (filters : Nat → Nat → F)
    (hc : cols ≤ c.maxLen) (n : Nat) :
    ∃ fs, initLoop c cols m filters n = .ok fs ∧ ∀ f < n, RowHolds c L (fs f) ((List.range cols).map (m f)) := by
  induction n with
  | zero => exact ⟨filters, rfl, by intro f hf; omega⟩
  | succ n ih =>
    obtain ⟨fs, h1, h2⟩ := ih
    obtain ⟨r, g1, g2⟩ := transform_ok hs ((List.range cols).map (m n)) (fs n) (by simpa using hc)
    refine ⟨fun f => if f = n then r else fs f, ?_, ?_⟩
    · simp only [initLoop, h1, g1]
    · intro f hf
      by_cases hfn : f = n
      · simp only [hfn, if_true]; exact g2
      · simp only [if_neg hfn]; exact h2 f (by omega)

end Visr.InterpConvolver
