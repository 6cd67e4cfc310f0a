import Verif.PanningDsp.Spec
import Mathlib.Tactic.FieldSimp
import Mathlib.Tactic.Ring
import Mathlib.Tactic.Linarith
import Mathlib.Algebra.CharZero.Defs
import Mathlib.Data.Nat.Cast.Order.Basic

/-! # Auxiliary lemmas for C69 -/

namespace Visr.PanningDsp

variable {K : Type*} [Field K] [CharZero K]

theorem wadd_eq {a b : Nat} (h : a + b < infinity) : wadd a b = a + b := by
  unfold wadd infinity at *; omega

theorem wsub_eq {a b : Nat} (h : b ≤ a) (ha : a ≤ infinity) : wsub a b = a - b := by
  unfold wsub infinity at *; omega

/-- Relation of the members of an object to its trajectory at time `t`. -/
structure R (numLsp t : Nat) (o : Obj K) (s : Traj K) : Prop where
  lenPrev : o.prevGains.length = numLsp
  lenTarget : o.targetGains.length = numLsp
  lenPend : o.pendGains.length = numLsp
  prevLe : o.prevTime ≤ t
  targetGt : t < o.targetTime
  targetLe : o.targetTime ≤ o.pendStart
  pendLe : o.pendStart ≤ infinity
  stored : match s.stored with
    | none => o.pendStart = infinity
    | some m => o.pendStart = m.start ∧ o.pendDuration = m.duration ∧ o.pendGains = m.gains ∧
        m.start + m.duration < infinity
  seg : (t < s.seg.stop ∧ o.prevTime = s.seg.start ∧ o.targetTime = s.seg.stop ∧ o.targetTime < infinity ∧
      (∀ l, gainsOf o.prevGains l = s.seg.init l) ∧ ∀ l, gainsOf o.targetGains l = s.seg.target l) ∨
    (s.seg.stop ≤ t ∧ o.prevGains = o.targetGains ∧ ∀ l, gainsOf o.targetGains l = s.seg.target l)

omit [CharZero K] in
theorem blend_self (alpha : K) (a : List K) : blend alpha a a = a := by
  unfold blend
  apply List.ext_getElem
  · simp
  · intro i h1 h2
    simp only [List.getElem_zipWith]; ring

omit [CharZero K] in
theorem blend_zero (a b : List K) (h : a.length = b.length) : blend (0 : K) a b = a := by
  unfold blend
  apply List.ext_getElem
  · simp [h]
  · intro i h1 h2
    simp only [List.getElem_zipWith]; ring

theorem R_init (numLsp : Nat) (gains : List K) (h : gains.length = numLsp) :
    R numLsp 0 (Obj.init numLsp gains) (Traj.init gains) where
  lenPrev := h
  lenTarget := h
  lenPend := by simp [Obj.init]
  prevLe := le_refl _
  targetGt := by simp [Obj.init, infinity]
  targetLe := le_refl _
  pendLe := le_refl _
  stored := rfl
  seg := Or.inr ⟨le_refl _, rfl, fun _ => rfl⟩

/-- The end of a slope activates the stored transition. -/
theorem R_next {numLsp t : Nat} {o : Obj K} {s : Traj K} (h : R numLsp t o s) {t' : Nat} (ht : t < t')
    (hle : t' ≤ o.targetTime) (hinf : t' < infinity) : R numLsp t' (nextSlope o t') (s.activate t') := by
  obtain ⟨p, T, a, b, ps, pd, pg⟩ := o
  obtain ⟨h1, h2, h3, h4, h5, h6, h7, hst, hseg⟩ := h
  obtain ⟨⟨s0, s1, si, sg⟩, st⟩ := s
  simp only at *
  by_cases hT : t' = T
  · subst hT
    by_cases hp : ps = t'
    · subst hp
      cases st with
      | none => simp only at hst; omega
      | some m =>
        obtain ⟨hs1, hs2, hs3, hs4⟩ := hst
        obtain ⟨ms, md, mg⟩ := m
        simp only at hs1 hs2 hs3 hs4
        subst hs1 hs2 hs3
        have hval : ∀ l, (⟨s0, s1, si, sg⟩ : Seg K).value ps l = gainsOf b l := by
          intro l
          rcases hseg with ⟨g1, g2, g3, g4, g5, g6⟩ | ⟨g1, g2, g3⟩
          · rw [Seg.value, if_neg (by simp only; omega)]; exact (g6 l).symm
          · rw [Seg.value, if_neg (by simp only; omega)]; exact (g3 l).symm
        by_cases hd : pd = 0
        · subst hd
          simp only [nextSlope, Traj.activate, if_true]
          refine ⟨h3, h3, h3, le_refl _, hinf, le_refl _, le_refl _, rfl, Or.inr ⟨by simp, rfl, fun _ => rfl⟩⟩
        · simp only [nextSlope, Traj.activate, if_true, if_neg hd]
          have hw : wadd ps pd = ps + pd := wadd_eq hs4
          refine ⟨h2, h3, h3, le_refl _, ?_, ?_, le_refl _, rfl, Or.inl ⟨?_, rfl, hw, ?_, ?_, fun _ => rfl⟩⟩
          · simp only [hw]; omega
          · simp only [hw]; omega
          · simp only; omega
          · simp only [hw]; omega
          · intro l; exact (hval l).symm
    · have hact : (⟨⟨s0, s1, si, sg⟩, st⟩ : Traj K).activate t' = ⟨⟨s0, s1, si, sg⟩, st⟩ := by
        cases st with
        | none => rfl
        | some m =>
          obtain ⟨hs1, -⟩ := hst
          have : ¬ m.start = t' := by omega
          simp only [Traj.activate, if_neg this]
      rw [hact]
      simp only [nextSlope, if_true, if_neg hp]
      refine ⟨h2, h2, h3, le_refl _, ?_, le_refl _, h7, hst, Or.inr ⟨?_, rfl, ?_⟩⟩
      · simp only; omega
      · rcases hseg with ⟨g1, g2, g3, g4, g5, g6⟩ | ⟨g1, g2, g3⟩
        · simp only; omega
        · simp only; omega
      · rcases hseg with ⟨g1, g2, g3, g4, g5, g6⟩ | ⟨g1, g2, g3⟩
        · exact g6
        · exact g3
  · have hact : (⟨⟨s0, s1, si, sg⟩, st⟩ : Traj K).activate t' = ⟨⟨s0, s1, si, sg⟩, st⟩ := by
      cases st with
      | none => rfl
      | some m =>
        obtain ⟨hs1, -⟩ := hst
        have : ¬ m.start = t' := by omega
        simp only [Traj.activate, if_neg this]
    rw [hact]
    simp only [nextSlope, if_neg hT]
    refine ⟨h1, h2, h3, by simp only; omega, by simp only; omega, h6, h7, hst, ?_⟩
    rcases hseg with ⟨g1, g2, g3, g4, g5, g6⟩ | ⟨g1, g2, g3⟩
    · exact Or.inl ⟨by simp only; omega, g2, g3, g4, g5, g6⟩
    · exact Or.inr ⟨by simp only; omega, g2, g3⟩

/-- Before the end of the slope nothing is activated. -/
theorem after_eq {numLsp t : Nat} {o : Obj K} {s : Traj K} (h : R numLsp t o s) (n : Nat)
    (hn : t + n < o.targetTime) : s.after t n = s := by
  induction n with
  | zero => rfl
  | succ n ih =>
    rw [Traj.after, ih (by omega)]
    have h6 := h.targetLe
    have hst := h.stored
    unfold Traj.activate
    cases hs : s.stored with
    | none => rfl
    | some m =>
      rw [hs] at hst
      have : ¬ m.start = t + n + 1 := by have := hst.1; omega
      simp only [if_neg this]

omit [CharZero K] in
theorem after_add (s : Traj K) (t d n : Nat) : s.after t (d + n) = (s.after t d).after (t + d) n := by
  induction n with
  | zero => rfl
  | succ n ih =>
    rw [← Nat.add_assoc, Traj.after, Traj.after, ih]
    congr 1; omega

/-- Gains of the samples of a slope. -/
theorem slope_gain {numLsp t : Nat} {o : Obj K} {s : Traj K} (h : R numLsp t o s) (n l : Nat)
    (hn : t + n + 1 ≤ o.targetTime) :
    gainsOf o.prevGains l + interpolationRatio t o.prevTime o.targetTime *
        (gainsOf o.targetGains l - gainsOf o.prevGains l) +
      gainIncRatio o.prevTime o.targetTime * (gainsOf o.targetGains l - gainsOf o.prevGains l) * ((1 : K) + n) =
    s.gain t n l := by
  rw [Traj.gain, after_eq h n (by omega)]
  have h4 := h.prevLe
  have h5 := h.targetGt
  have h6 := h.targetLe
  have h7 := h.pendLe
  rcases h.seg with ⟨g1, g2, g3, g4, g5, g6⟩ | ⟨g1, g2, g3⟩
  · have hne : ¬ o.targetTime = infinity := by omega
    rw [interpolationRatio, gainIncRatio, if_neg hne, if_neg hne, wsub_eq h4 (by omega),
      wsub_eq (by omega) (by omega), g5, g6, Nat.cast_sub h4, Nat.cast_sub (by omega), Seg.value, g2, g3]
    have hd : ((s.seg.stop : K) - s.seg.start) ≠ 0 := by
      rw [sub_ne_zero, Ne, Nat.cast_inj]; omega
    by_cases hlt : t + n + 1 < s.seg.stop
    · rw [if_pos hlt]; push_cast; field_simp; ring
    · rw [if_neg hlt]
      have he : (s.seg.stop : K) = t + n + 1 := by
        have : s.seg.stop = t + n + 1 := by omega
        rw [this]; push_cast; rfl
      rw [he] at hd ⊢
      field_simp; ring
  · rw [Seg.value, if_neg (by omega), g2, g3]; ring

/-! ## Buffers -/

/-- Table of a signal: `numLsp` channels of `period` samples. -/
def tab (numLsp period : Nat) (f : Nat → Nat → K) : List (List K) :=
  (List.range numLsp).map (fun l => (List.range period).map (f l))

omit [CharZero K] in
theorem tab_congr {numLsp period : Nat} {f g : Nat → Nat → K}
    (h : ∀ l < numLsp, ∀ n < period, f l n = g l n) : tab numLsp period f = tab numLsp period g := by
  unfold tab
  refine List.map_congr_left fun l hl => List.map_congr_left fun n hn => ?_
  exact h l (List.mem_range.1 hl) n (List.mem_range.1 hn)

omit [CharZero K] in
theorem tab_of {numLsp period : Nat} (x : List (List K)) (h1 : x.length = numLsp)
    (h2 : ∀ c ∈ x, c.length = period) : x = tab numLsp period (fun l n => (x.getD l []).getD n 0) := by
  unfold tab
  apply List.ext_getElem
  · simp [h1]
  · intro l hl1 hl2
    have hc := h2 _ (List.getElem_mem hl1)
    apply List.ext_getElem
    · simp [hc]
    · intro n hn1 hn2
      simp [List.getD_eq_getElem?_getD, List.getElem?_eq_getElem hl1, List.getElem?_eq_getElem hn1]

omit [CharZero K] in
theorem scalingRamp_getD (period i : Nat) (h : i < period) : (scalingRamp period : List K).getD i 0 = 1 + i := by
  simp [scalingRamp, List.getD_eq_getElem?_getD, List.getElem?_range h]

omit [CharZero K] in
theorem splice (period off d : Nat) (f g : Nat → K) (h : off + d ≤ period) :
    ((List.range period).map f).take off ++ (List.range d).map g ++ ((List.range period).map f).drop (off + d) =
      (List.range period).map (fun n => if off ≤ n ∧ n < off + d then g (n - off) else f n) := by
  rw [List.append_assoc]
  apply List.ext_getElem
  · simp; omega
  · intro n h1 h2
    simp only [List.length_map, List.length_range] at h2
    by_cases ha : n < off
    · rw [List.getElem_append_left (by simp; omega)]
      simp [Nat.not_le.2 ha]
    · have e : min off period = off := by omega
      rw [List.getElem_append_right (by simp; omega)]
      by_cases hb : n < off + d
      · rw [List.getElem_append_left (by simp; omega)]
        simp [e, hb, Nat.not_lt.1 ha]
      · rw [List.getElem_append_right (by simp; omega)]
        simp [hb]
        congr 1; omega

omit [CharZero K] in
theorem scaleSignal_map (input : List K) (period off d : Nat) (f : Nat → K) (g0 g1 : K) (acc : Bool)
    (h : off + d ≤ period) :
    scaleSignal (scalingRamp period) input ((List.range period).map f) off d g0 g1 acc =
      (List.range period).map (fun n =>
        if off ≤ n ∧ n < off + d then
          (if acc then f n else 0) + (g0 + g1 * (1 + ((n - off : Nat) : K))) * input.getD n 0
        else f n) := by
  have hv : Efl.vectorRampScaling (input.drop off) (scalingRamp period) (((List.range period).map f).drop off)
      g0 g1 d acc = (List.range d).map (fun i => (if acc then f (off + i) else 0) +
        (g0 + g1 * (1 + (i : K))) * input.getD (off + i) 0) := by
    unfold Efl.vectorRampScaling
    cases acc with
    | true =>
      simp only [if_true]
      refine List.map_congr_left fun i hi => ?_
      have hi := List.mem_range.1 hi
      rw [scalingRamp_getD _ _ (by omega)]
      simp [List.getD_eq_getElem?_getD, List.getElem?_drop, List.getElem?_range (show off + i < period by omega)]
    | false =>
      simp only [Bool.false_eq_true, if_false, zero_add]
      refine List.map_congr_left fun i hi => ?_
      have hi := List.mem_range.1 hi
      rw [scalingRamp_getD _ _ (by omega)]
      simp [List.getD_eq_getElem?_getD, List.getElem?_drop]
  unfold scaleSignal
  rw [hv, splice _ _ _ _ _ h]
  refine List.map_congr_left fun n hn => ?_
  split
  · rename_i hc
    rw [show off + (n - off) = n by omega]
  · rfl

theorem slope_tab {numLsp t period : Nat} {o : Obj K} {s : Traj K} (h : R numLsp t o s) (input : List K)
    (off d : Nat) (acc : Bool) (f : Nat → Nat → K) (hd : off + d ≤ period) (hT : t + d ≤ o.targetTime) :
    processAudioSingleSlope (scalingRamp period) input o t off d acc (tab numLsp period f) =
      tab numLsp period (fun l n =>
        if off ≤ n ∧ n < off + d then (if acc then f l n else 0) + s.gain t (n - off) l * input.getD n 0
        else f l n) := by
  unfold processAudioSingleSlope tab
  simp only [List.mapIdx_eq_zipIdx_map]
  apply List.ext_getElem
  · simp
  · intro l h1 h2
    simp only [List.getElem_map, List.getElem_zipIdx, List.getElem_range, Nat.zero_add]
    rw [scaleSignal_map _ _ _ _ _ _ _ _ hd]
    refine List.map_congr_left fun n hn => ?_
    split
    · rename_i hc
      rw [← slope_gain h (n - off) l (by omega)]
      rfl
    · rfl

/-- One object in one block. -/
theorem slopeLoop_ok (numLsp period : Nat) (input : List K) (acc : Bool) (E : Nat) (hE : E < infinity) :
    ∀ (fuel t off : Nat) (o : Obj K) (s : Traj K) (f : Nat → Nat → K), R numLsp t o s → t ≤ E → E - t ≤ fuel →
      off + (E - t) = period →
      ∃ o', slopeLoop (scalingRamp period) input acc E fuel t off o (tab numLsp period f) =
          .ok (o', tab numLsp period (fun l n =>
            if off ≤ n then (if acc then f l n else 0) + s.gain t (n - off) l * input.getD n 0 else f l n)) ∧
        R numLsp E o' (s.after t (E - t)) := by
  intro fuel
  induction fuel with
  | zero =>
    intro t off o s f h hle hf hoff
    have : t = E := by omega
    subst this
    refine ⟨o, ?_, by simpa [Traj.after] using h⟩
    unfold slopeLoop
    rw [if_neg (by omega)]
    congr 2
    refine tab_congr fun l hl n hn => ?_
    rw [if_neg (by omega)]
  | succ fuel ih =>
    intro t off o s f h hle hf hoff
    by_cases hlt : t < E
    · have hT := h.targetGt
      have hmin : t < min o.targetTime E := by omega
      have hR := R_next h (t' := t + (min o.targetTime E - t)) (by omega) (by omega) (by omega)
      set d := min o.targetTime E - t with hd
      have hst : s.activate (t + d) = s.after t d := by
        obtain ⟨k, hk⟩ : ∃ k, d = k + 1 := ⟨d - 1, by omega⟩
        rw [hk, Traj.after, after_eq h k (by omega)]; rfl
      rw [hst] at hR
      obtain ⟨o', ho', hR'⟩ := ih (t + d) (off + d) _ _ (fun l n =>
        if off ≤ n ∧ n < off + d then (if acc then f l n else 0) + s.gain t (n - off) l * input.getD n 0
        else f l n) hR (by omega) (by omega) (by omega)
      refine ⟨o', ?_, ?_⟩
      · unfold slopeLoop
        rw [if_pos hlt]
        simp only
        rw [if_pos ⟨by have := h.prevLe; omega, h.prevLe, h.targetGt, by have := h.targetLe; omega⟩]
        simp only [← hd]
        rw [slope_tab h input off d acc f (by omega) (by omega), ho']
        congr 2
        refine tab_congr fun l hl n hn => ?_
        by_cases h1 : off + d ≤ n
        · have h2 : off ≤ n := by omega
          have h3 : ¬ (off ≤ n ∧ n < off + d) := by omega
          rw [if_pos h1, if_pos h2, if_neg h3]
          congr 2
          unfold Traj.gain
          rw [← after_add]
          rw [show d + (n - (off + d)) = n - off by omega, show t + d + (n - (off + d)) + 1 = t + (n - off) + 1 by omega]
        · rw [if_neg h1]
          by_cases h2 : off ≤ n
          · rw [if_pos ⟨h2, by omega⟩, if_pos h2]
          · rw [if_neg (by omega), if_neg h2]
      · rw [← after_add] at hR'
        have e : d + (E - (t + d)) = E - t := by omega
        rwa [e] at hR'
    · have : t = E := by omega
      subst this
      refine ⟨o, ?_, by simpa [Traj.after] using h⟩
      unfold slopeLoop
      rw [if_neg (by omega)]
      congr 2
      refine tab_congr fun l hl n hn => ?_
      rw [if_neg (by omega)]

/-- All objects of one block. -/
theorem objectLoop_ok (numLsp period clock : Nat) (hE : clock + period < infinity) :
    ∀ (os : List (Obj K)) (ss : List (Traj K)) (inputs : List (List K)) (acc : Bool) (f : Nat → Nat → K),
      List.Forall₂ (R numLsp clock) os ss → inputs.length = ss.length →
      ∃ os', objectLoop (scalingRamp period) clock period acc os inputs (tab numLsp period f) =
          .ok (os', tab numLsp period (fun l n => (if acc ∨ os = [] then f l n else 0) +
            (List.zipWith (fun (s : Traj K) (x : List K) => s.gain clock n l * x.getD n 0) ss inputs).sum)) ∧
        List.Forall₂ (R numLsp (clock + period)) os' (ss.map (fun s => s.after clock period)) := by
  intro os ss inputs acc f hR
  induction hR generalizing inputs acc f with
  | nil =>
    intro hlen
    refine ⟨[], ?_, by simp⟩
    simp [objectLoop]
  | cons h1 h2 ih =>
    rename_i o s os ss
    intro hlen
    cases inputs with
    | nil => simp at hlen
    | cons x xs =>
      obtain ⟨o', ho', hR'⟩ := slopeLoop_ok numLsp period x acc (clock + period) hE period clock 0 o s f h1
        (by omega) (by omega) (by omega)
      obtain ⟨os', hos', hRs'⟩ := ih xs true _ (by simpa using hlen)
      refine ⟨o' :: os', ?_, ?_⟩
      · unfold objectLoop
        rw [wadd_eq hE, ho']
        simp only
        rw [hos']
        simp only [Outcome.map]
        congr 2
        refine tab_congr fun l hl n hn => ?_
        simp
        ring
      · have e : clock + period - clock = period := by omega
        rw [e] at hR'
        exact List.Forall₂.cons hR' hRs'

theorem blend_value {numLsp t : Nat} {o : Obj K} {s : Traj K} (h : R numLsp t o s) (hrun : t < s.seg.stop) (l : Nat) :
    gainsOf (blend (interpolationRatio t o.prevTime o.targetTime) o.prevGains o.targetGains) l = s.seg.value t l := by
  have h1 := h.lenPrev
  have h2 := h.lenTarget
  have h4 := h.prevLe
  have h5 := h.targetGt
  have h6 := h.targetLe
  have h7 := h.pendLe
  rcases h.seg with ⟨g1, g2, g3, g4, g5, g6⟩ | ⟨g1, -⟩
  · have hb : ∀ alpha : K, gainsOf (blend alpha o.prevGains o.targetGains) l =
        alpha * gainsOf o.targetGains l + (1 - alpha) * gainsOf o.prevGains l := by
      intro alpha
      unfold blend gainsOf
      by_cases hl : l < numLsp
      · simp [List.getD_eq_getElem?_getD, List.getElem?_zipWith,
          List.getElem?_eq_getElem (show l < o.prevGains.length by omega),
          List.getElem?_eq_getElem (show l < o.targetGains.length by omega)]
      · simp [List.getD_eq_getElem?_getD, List.getElem?_zipWith,
          List.getElem?_eq_none (show o.prevGains.length ≤ l by omega),
          List.getElem?_eq_none (show o.targetGains.length ≤ l by omega)]
    rw [hb, g5, g6, interpolationRatio, if_neg (by omega), wsub_eq h4 (by omega), wsub_eq (by omega) (by omega),
      Nat.cast_sub h4, Nat.cast_sub (by omega), Seg.value, if_pos hrun, g2, g3]
    ring
  · omega

/-- A valid message keeps the relation to the trajectory of the code. -/
theorem update_ok {numLsp t : Nat} {o : Obj K} {s : Traj K} (h : R numLsp t o s) (ht : t < infinity)
    (m : Transition K) (hm : Valid numLsp t m) :
    ∃ o', updateTransition o t m = .ok o' ∧ R numLsp t o' (receiveActual s t m) := by
  have hbl := blend_value h
  rcases hm with hm | ⟨hge, hend, hlen⟩
  · refine ⟨o, by simp [updateTransition, hm], ?_⟩
    have e : receiveActual s t m = s := by
      rw [receiveActual, if_neg (by omega), if_neg (by omega), Traj.receive, if_pos (Or.inl hm)]
    rw [e]; exact h
  · obtain ⟨p, T, a, b, ps, pd, pg⟩ := o
    obtain ⟨h1, h2, h3, h4, h5, h6, h7, hst, hseg⟩ := h
    obtain ⟨⟨s0, s1, si, sg⟩, st⟩ := s
    obtain ⟨ms, md, mg⟩ := m
    simp only at *
    have hne : ¬ ms = infinity := by omega
    have hnl : ¬ ms < t := by omega
    by_cases he : ms = t
    · subst he
      simp only [updateTransition, if_neg hne, lt_irrefl, if_false, if_true]
      by_cases hd : md = 0
      · subst hd
        have hra : receiveActual (⟨⟨s0, s1, si, sg⟩, st⟩ : Traj K) ms ⟨ms, 0, mg⟩ =
            ⟨⟨ms, ms + 0, (⟨s0, s1, si, sg⟩ : Seg K).value ms, gainsOf mg⟩, none⟩ := by
          rw [receiveActual, if_neg (by simp), if_neg (by simp), Traj.receive, if_neg (by simpa using hne)]
          simp only [Traj.activate, if_true]
        rw [hra, if_pos rfl]
        refine ⟨_, rfl, hlen, hlen, hlen, le_refl _, ht, le_refl _, le_refl _, rfl, Or.inr ⟨by simp, rfl, fun _ => rfl⟩⟩
      · rw [if_neg hd]
        have hw : wadd ms md = ms + md := wadd_eq hend
        have hal : (interpolationRatio ms ms T : K) = 0 := by
          unfold interpolationRatio
          split
          · rfl
          · rw [wsub_eq (le_refl _) (by omega)]; simp
        rw [hal, blend_zero _ _ (by omega)]
        refine ⟨_, rfl, ?_⟩
        rcases hseg with ⟨g1, g2, g3, g4, g5, g6⟩ | ⟨g1, g2, g3⟩
        · rw [receiveActual, if_pos ⟨hne, rfl, hd, g1⟩]
          refine ⟨h1, hlen, hlen, le_refl _, ?_, ?_, le_refl _, rfl,
            Or.inl ⟨by simp only; omega, rfl, hw, by simp only [hw]; omega, g5, fun _ => rfl⟩⟩
          · simp only [hw]; omega
          · simp only [hw]; omega
        · rw [receiveActual, if_neg (by simp only; omega), if_neg (by simp), Traj.receive, if_neg (by simpa using hne)]
          simp only [Traj.activate, if_true]
          refine ⟨h1, hlen, hlen, le_refl _, ?_, ?_, le_refl _, rfl,
            Or.inl ⟨by simp only; omega, rfl, hw, by simp only [hw]; omega, ?_, fun _ => rfl⟩⟩
          · simp only [hw]; omega
          · simp only [hw]; omega
          · intro l
            simp only
            rw [Seg.value, if_neg (by simp only; omega), g2, g3]
    · have hgt : t < ms := by omega
      simp only [updateTransition, if_neg hne, if_neg hnl, if_neg he]
      rcases hseg with ⟨g1, g2, g3, g4, g5, g6⟩ | ⟨g1, g2, g3⟩
      · by_cases hT : ms < T
        · rw [if_pos hT, receiveActual, if_neg (by simp only; omega), if_pos ⟨hne, hgt, by simp only; omega⟩]
          refine ⟨_, rfl, h1, ?_, hlen, h4, hgt, le_refl _, by simp only; omega, ⟨rfl, rfl, rfl, hend⟩,
            Or.inl ⟨hgt, g2, rfl, by simp only; omega, g5, ?_⟩⟩
          · simp only [blend, List.length_zipWith]; omega
          · intro l; exact hbl g1 l
        · rw [if_neg hT, receiveActual, if_neg (by simp only; omega), if_neg (by simp only; omega), Traj.receive,
            if_neg (by simp only; omega)]
          simp only [Traj.activate, if_neg he]
          refine ⟨_, rfl, h1, h2, hlen, h4, h5, by simp only; omega, by simp only; omega, ⟨rfl, rfl, rfl, hend⟩,
            Or.inl ⟨g1, g2, g3, g4, g5, g6⟩⟩
      · have hra : receiveActual (⟨⟨s0, s1, si, sg⟩, st⟩ : Traj K) t ⟨ms, md, mg⟩ =
            ⟨⟨s0, s1, si, sg⟩, some ⟨ms, md, mg⟩⟩ := by
          rw [receiveActual, if_neg (by simp only; omega), if_neg (by simp only; omega), Traj.receive,
            if_neg (by simp only; omega)]
          simp only [Traj.activate, if_neg he]
        rw [hra]
        subst g2
        by_cases hT : ms < T
        · rw [if_pos hT, blend_self]
          refine ⟨_, rfl, h1, h1, hlen, h4, hgt, le_refl _, by simp only; omega, ⟨rfl, rfl, rfl, hend⟩,
            Or.inr ⟨g1, rfl, g3⟩⟩
        · rw [if_neg hT]
          refine ⟨_, rfl, h1, h2, hlen, h4, h5, by simp only; omega, by simp only; omega, ⟨rfl, rfl, rfl, hend⟩,
            Or.inr ⟨g1, rfl, g3⟩⟩

/-- Without interruption the code receives messages as documented. -/
theorem receiveActual_eq {t : Nat} (s : Traj K) (m : Transition K) (h : NoInterruption t s m) : receiveActual s t m = s.receive t m := by
  unfold receiveActual
  by_cases h1 : m.start ≠ infinity ∧ m.start = t ∧ m.duration ≠ 0 ∧ t < s.seg.stop
  · rw [if_pos h1]
    obtain ⟨e0, e1, e2, e3⟩ := h1
    rcases h with h | h | ⟨-, h | h⟩
    · omega
    · omega
    · exact absurd h e2
    · have : ¬ (m.start = infinity ∨ m.start < t) := by omega
      rw [Traj.receive, if_neg this]
      simp only [Traj.activate, if_pos e1]
      congr 2
      funext l
      rw [Seg.value, if_pos e3, h]
      simp
  · rw [if_neg h1]
    by_cases h2 : m.start ≠ infinity ∧ t < m.start ∧ m.start < s.seg.stop
    · rcases h with h | h | ⟨h, -⟩ <;> omega
    · rw [if_neg h2]

theorem updateAll_ok {numLsp t : Nat} (ht : t < infinity) (os : List (Obj K)) (ss : List (Traj K))
    (h : List.Forall₂ (R numLsp t) os ss) : ∀ (ms : List (Transition K)),
    List.Forall₂ (fun _ m => Valid numLsp t m) ss ms →
    ∃ os', updateTransitions t os ms = (os', .ok ()) ∧
      List.Forall₂ (R numLsp t) os' (List.zipWith (fun s m => receiveActual s t m) ss ms) := by
  induction h with
  | nil => intro ms hm; cases hm; exact ⟨[], rfl, by simp⟩
  | cons h1 h2 ih =>
    intro ms hm
    cases hm with
    | cons hm1 hm2 =>
      obtain ⟨o', ho', hR'⟩ := update_ok h1 ht _ hm1
      obtain ⟨os', hos', hRs'⟩ := ih _ hm2
      refine ⟨o' :: os', ?_, ?_⟩
      · simp only [updateTransitions, ho', hos']
      · exact List.Forall₂.cons hR' hRs'

/-- All histories of valid messages follow the trajectories of the code. -/
theorem run_law (numLsp period : Nat) : ∀ (ops : List (Op K)) (clock : Nat) (os : List (Obj K)) (ss : List (Traj K)),
    List.Forall₂ (R numLsp clock) os ss →
    Admissible receiveActual (fun _ _ _ => True) numLsp period clock ss ops →
    (run step (⟨numLsp, period, clock, os, none⟩ : State K) ops).2 =
      (specRun receiveActual numLsp period clock ss ops).map .ok := by
  intro ops
  induction ops with
  | nil => intro clock os ss _ _; rfl
  | cons op ops ih =>
    intro clock os ss hR hadm
    obtain ⟨h1, h2, ⟨h3, h3'⟩, h4, h5⟩ := hadm
    have hmsg : ∃ os', applyMessage clock os op.message = (os', .ok ()) ∧
        List.Forall₂ (R numLsp clock) os' (receiveAll receiveActual clock ss op.message) := by
      cases hm : op.message with
      | none => exact ⟨os, rfl, hR⟩
      | some m =>
        exact updateAll_ok (by omega) os ss hR m ((h4 m hm).imp fun _ _ h => h.1)
    obtain ⟨os', hos', hR'⟩ := hmsg
    have hlen : op.input.length = (receiveAll receiveActual clock ss op.message).length := by
      cases hm : op.message with
      | none => exact h2
      | some m =>
        have := (h4 m hm).length_eq
        simp only [receiveAll, List.length_zipWith]; omega
    set ss' := receiveAll receiveActual clock ss op.message with hss'
    have haud : ∃ os'', processAudio (⟨numLsp, period, clock, os', none⟩ : State K) op.input op.stale =
        .ok (os'', specOutput numLsp period clock ss' op.input) ∧
        List.Forall₂ (R numLsp (clock + period)) os'' (ss'.map (fun s => s.after clock period)) := by
      unfold processAudio
      by_cases h0 : os'.length = 0
      · have e : os' = [] := List.length_eq_zero_iff.1 h0
        rw [e] at hR'
        have e' : ss' = [] := by
          have := hR'.length_eq
          exact List.length_eq_zero_iff.1 this.symm
        refine ⟨[], ?_, by rw [e']; simp⟩
        rw [if_pos h0, e, e']
        congr 2
        simp [specOutput]
      · rw [if_neg h0]
        rw [tab_of op.stale h3 h3']
        obtain ⟨os'', hos'', hR''⟩ := objectLoop_ok numLsp period clock h1 os' ss' op.input false
          (fun l n => (op.stale.getD l []).getD n 0) hR' hlen
        refine ⟨os'', ?_, hR''⟩
        simp only at hos'' ⊢
        rw [hos'']
        have hne : os' ≠ [] := fun e => h0 (by rw [e]; rfl)
        simp [hne, tab, specOutput]
    obtain ⟨os'', hos'', hR''⟩ := haud
    have hstep : step (⟨numLsp, period, clock, os, none⟩ : State K) op =
        (⟨numLsp, period, clock + period, os'', none⟩, .ok (specOutput numLsp period clock ss' op.input)) := by
      unfold step
      have e : (op.message <|> (none : Option (List (Transition K)))) = op.message := by cases op.message <;> rfl
      simp only [e, hos', hos'', wadd_eq h1]
    rw [run]
    simp only [hstep, specRun, List.map_cons]
    rw [ih (clock + period) os'' _ hR'' h5]

end Visr.PanningDsp
