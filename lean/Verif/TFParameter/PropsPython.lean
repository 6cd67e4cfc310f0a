import Verif.TFParameter.PyModel
import Verif.TFParameter.Props

/-!
# C109: time-frequency parameters in Python
-/

namespace Visr.TFParameter
open Visr Visr.Efl

variable {α : Type} [Zero α]

/-! ## Lemmas -/

theorem mem_loopIndices {frames channels bins f c b : Nat} :
    (f, c, b) ∈ loopIndices frames channels bins ↔ f < frames ∧ c < channels ∧ b < bins := by
  simp [loopIndices]

theorem assignAll_holds (el : Nat → Nat → Nat → α) (l : List (Nat × Nat × Nat)) :
    ∀ (p : TF α) (t : Cube α), HoldsTF p t → (∀ i ∈ l, i.1 < t.frames ∧ i.2.1 < t.channels ∧ i.2.2 < t.bins) →
      ∃ q u, assignAll el l p = .ok q ∧ HoldsTF q u ∧ u.frames = t.frames ∧ u.channels = t.channels ∧ u.bins = t.bins ∧
        ∀ f c b, u.elem f c b = if (f, c, b) ∈ l then el f c b else t.elem f c b := by
  induction l with
  | nil => intro p t h _; exact ⟨p, t, rfl, h, rfl, rfl, rfl, by simp⟩
  | cons i l ih =>
    intro p t h hl
    obtain ⟨f, c, b⟩ := i
    obtain ⟨h1, h2, h3⟩ := hl (f, c, b) (by simp)
    obtain ⟨q, e, hq⟩ := write_tf h h1 h2 h3 (el f c b)
    obtain ⟨r, u, e', hr, a1, a2, a3, a4⟩ := ih q _ hq (fun i hi => hl i (by simp [hi]))
    refine ⟨r, u, by simp only [assignAll, e, e'], hr, a1, a2, a3, ?_⟩
    intro f' c' b'
    rw [a4]
    by_cases hm : (f', c', b') ∈ l
    · simp [hm]
    · by_cases hi : f' = f ∧ c' = c ∧ b' = b
      · obtain ⟨rfl, rfl, rfl⟩ := hi; simp
      · simp only [hm, if_false, List.mem_cons, Prod.mk.injEq, hi, or_self]

theorem fromNdArray_holds (frames channels bins : Nat) (el : Nat → Nat → Nat → α) (align : Nat)
    (ha : alignmentAccepted align = true) : ∃ p u, fromNdArray [frames, channels, bins] el align = .ok p ∧ HoldsTF p u ∧
      u.frames = frames ∧ u.channels = channels ∧ u.bins = bins ∧
      ∀ f c b, f < frames → c < channels → b < bins → u.elem f c b = el f c b := by
  obtain ⟨p, e, h⟩ := create_tf (α := α) bins channels frames align ha
  obtain ⟨q, u, e', hq, a1, a2, a3, a4⟩ := assignAll_holds el (loopIndices frames channels bins) p _ h
    (fun i hi => mem_loopIndices.1 hi)
  refine ⟨q, u, by simp only [fromNdArray, e, e'], hq, a1, a2, a3, ?_⟩
  intro f c b hf hc hb
  rw [a4, if_pos (mem_loopIndices.2 ⟨hf, hc, hb⟩)]

theorem sizeT_nat {n : Nat} (h : n < 2 ^ 64) : sizeT n = some n := by
  exact if_pos h

theorem indices_nat (f c b : Nat) (hf : f < 2 ^ 64) (hc : c < 2 ^ 64) (hb : b < 2 ^ 64) (rest : List Int) :
    indices ((f : Int) :: (c : Int) :: (b : Int) :: rest) = .ok (f, c, b) := by
  simp only [indices, sizeT_nat hf, sizeT_nat hc, sizeT_nat hb]

theorem lt64 {n m : Nat} (h : n ≤ m) (hm : m < 2 ^ 63) : n < 2 ^ 64 := lt_of_le_of_lt h (lt_trans hm (by norm_num))

omit [Zero α] in
theorem getItem_nat (p : TF α) (f c b : Nat) (hf : f < 2 ^ 64) (hc : c < 2 ^ 64) (hb : b < 2 ^ 64) (rest : List Int) :
    getItem p ((f : Int) :: (c : Int) :: (b : Int) :: rest) = p.load (p.atPos f c b) := by
  unfold getItem
  have hx := indices_nat f c b hf hc hb rest
  generalize indices _ = x at hx ⊢
  subst hx
  rfl

omit [Zero α] in
theorem setItem_nat (p : TF α) (f c b : Nat) (hf : f < 2 ^ 64) (hc : c < 2 ^ 64) (hb : b < 2 ^ 64) (v : α) :
    setItem p [(f : Int), (c : Int), (b : Int)] v = p.save (p.atPos f c b) v := by
  unfold setItem
  have hx := indices_nat f c b hf hc hb []
  generalize indices _ = x at hx ⊢
  subst hx
  rfl

/-! ## Results -/

/-- **C109 (partial).** A parameter made from a three-dimensional array has the dimensions of the array, and each element reads as
in the array, both by index and through the buffer that NumPy uses. Missing: arrays without channels, see `no_channels_undefined`,
and indices that do not exist, see `index_not_checked`. -/
theorem array_round_trip_partial (frames channels bins : Nat) (el : Nat → Nat → Nat → α) (align : Nat) (h64 : align < 2 ^ 64)
    (ha : LegalAlign align) (hf : frames < 2 ^ 63) (hc : channels < 2 ^ 63) (hb : bins < 2 ^ 63) (h0 : 0 < channels) :
    ∃ p strides, fromNdArray [frames, channels, bins] el align = .ok p ∧
      bufferInfo p = .ok ([frames, channels, bins], strides) ∧
      ∀ f c b : Nat, f < frames → c < channels → b < bins →
        getItem p [(f : Int), (c : Int), (b : Int)] = .ok (el f c b) ∧ bufferGet p strides [f, c, b] = .ok (el f c b) := by
  obtain ⟨p, u, e, h, rfl, rfl, rfl, hel⟩ := fromNdArray_holds frames channels bins el align ((alignmentAccepted_iff h64).2 ha)
  refine ⟨p, [p.frameStride, p.channelStride, 1], e, ?_, ?_⟩
  · unfold bufferInfo TF.numberOfFrames
    rw [h.channels, if_neg h0.ne', h.mat.rows, h.mat.cols]
    simp only [Nat.mul_div_cancel _ h0]
  · intro f c b h1 h2 h3
    have hr := read_tf h h1 h2 h3
    rw [hel f c b h1 h2 h3] at hr
    refine ⟨?_, ?_⟩
    · rw [getItem_nat _ f c b (lt64 h1.le hf) (lt64 h2.le hc) (lt64 h3.le hb)]
      exact hr
    · unfold bufferGet
      rw [← hr]
      congr 1
      simp only [List.zipWith_cons_cons, List.zipWith_nil_left, List.sum_cons, List.sum_nil, TF.atPos, rowPos, TF.frameStride,
        TF.channelStride]
      ring

/-- **C109.** Arrays with another number of dimensions raise `ValueError`. -/
theorem other_dimensions_refused (shape : List Nat) (h : shape.length ≠ 3) (el : Nat → Nat → Nat → α) (align : Nat) :
    fromNdArray shape el align = .throw .invalidArgument := by
  match shape with
  | [] => rfl
  | [_] => rfl
  | [_, _] => rfl
  | [_, _, _] => simp at h
  | _ :: _ :: _ :: _ :: _ => rfl

/-- **C109.** An assignment by index changes that element and no other. -/
theorem assigned_element (frames channels bins : Nat) (el : Nat → Nat → Nat → α) (align : Nat) (h64 : align < 2 ^ 64)
    (ha : LegalAlign align) (hf : frames < 2 ^ 63) (hc : channels < 2 ^ 63) (hb : bins < 2 ^ 63) (f c b : Nat) (h1 : f < frames)
    (h2 : c < channels) (h3 : b < bins) (v : α) :
    ∃ p q, fromNdArray [frames, channels, bins] el align = .ok p ∧ setItem p [(f : Int), (c : Int), (b : Int)] v = .ok q ∧
      ∀ f' c' b' : Nat, f' < frames → c' < channels → b' < bins →
        getItem q [(f' : Int), (c' : Int), (b' : Int)] = .ok (if f' = f ∧ c' = c ∧ b' = b then v else el f' c' b') := by
  obtain ⟨p, u, e, h, rfl, rfl, rfl, hel⟩ := fromNdArray_holds frames channels bins el align ((alignmentAccepted_iff h64).2 ha)
  obtain ⟨q, e', hq⟩ := write_tf h h1 h2 h3 v
  refine ⟨p, q, e, ?_, ?_⟩
  · rw [setItem_nat p f c b (lt64 h1.le hf) (lt64 h2.le hc) (lt64 h3.le hb)]
    exact e'
  · intro f' c' b' h1' h2' h3'
    rw [getItem_nat _ f' c' b' (lt64 h1'.le hf) (lt64 h2'.le hc) (lt64 h3'.le hb)]
    refine (read_tf hq h1' h2' h3').trans ?_
    simp only [hel f' c' b' h1' h2' h3']

/-- **C109, negation.** Indices are not checked: the channel after the last one is the first channel of the next frame, and
reading from the frame after the last one is undefined behaviour, instead of an `IndexError`. Indices after the third are ignored. -/
theorem index_not_checked (frames channels bins : Nat) (el : Nat → Nat → Nat → α) (align : Nat) (h64 : align < 2 ^ 64)
    (ha : LegalAlign align) (hf : frames < 2 ^ 63) (hc : channels < 2 ^ 63) (hb : bins < 2 ^ 63) (h0 : 0 < channels) :
    ∃ p, fromNdArray [frames, channels, bins] el align = .ok p ∧
      (∀ f b : Nat, f + 1 < frames → b < bins → getItem p [(f : Int), (channels : Int), (b : Int)] = .ok (el (f + 1) 0 b)) ∧
      (∀ b : Nat, b < bins → getItem p [(frames : Int), 0, (b : Int)] = .ub) ∧
      (∀ f c b : Nat, f < frames → c < channels → b < bins → ∀ rest,
        getItem p ((f : Int) :: (c : Int) :: (b : Int) :: rest) = .ok (el f c b)) := by
  obtain ⟨p, u, e, h, rfl, rfl, rfl, hel⟩ := fromNdArray_holds frames channels bins el align ((alignmentAccepted_iff h64).2 ha)
  refine ⟨p, e, ?_, ?_, ?_⟩
  · intro f b h1 h3
    have hr := read_tf h h1 h0 h3
    rw [hel _ _ b h1 h0 h3] at hr
    rw [getItem_nat _ f u.channels b (lt64 (Nat.le_of_succ_le h1.le) hf) (lt64 le_rfl hc) (lt64 h3.le hb)]
    refine Eq.trans ?_ hr
    have : p.atPos f u.channels b = p.atPos (f + 1) 0 b := by
      simp only [TF.atPos, rowPos, h.channels]
      ring
    simp only [this]
  · intro b h3
    rw [show (0 : Int) = ((0 : Nat) : Int) from rfl, getItem_nat _ u.frames 0 b (lt64 le_rfl hf) (by norm_num) (lt64 h3.le hb)]
    simp only [TF.load, TF.atPos, rowPos, h.channels, h.mat.size, h.mat.rows]
    rw [if_neg (by rw [Nat.add_zero, Nat.mul_comm p.mat.stride]; exact Nat.not_lt.2 (Nat.le_add_right _ _))]
  · intro f c b h1 h2 h3 rest
    rw [getItem_nat _ f c b (lt64 h1.le hf) (lt64 h2.le hc) (lt64 h3.le hb)]
    exact (read_tf h h1 h2 h3).trans (by rw [hel f c b h1 h2 h3])

/-- **C109, negation.** A parameter made from an array without channels cannot be used as an array again: the number of frames is
a division by zero. -/
theorem no_channels_undefined (frames bins : Nat) (el : Nat → Nat → Nat → α) (align : Nat) (h64 : align < 2 ^ 64)
    (ha : LegalAlign align) : ∃ p, fromNdArray [frames, 0, bins] el align = .ok p ∧ bufferInfo p = .ub := by
  obtain ⟨p, u, e, h, _, hc, _⟩ := fromNdArray_holds frames 0 bins el align ((alignmentAccepted_iff h64).2 ha)
  refine ⟨p, e, ?_⟩
  simp [bufferInfo, TF.numberOfFrames, h.channels, hc]

/-! ## The hypotheses are satisfiable -/

/-- Elements that tell their indices. -/
def demoEl (f c b : Nat) : Int := 100 * f + 10 * c + b

/-- Read an element of the parameter made from an array of two frames, three channels and five bins. -/
def demoRead (idx : List Int) : Outcome Int := (fromNdArray [2, 3, 5] demoEl 4).bind fun p => getItem p idx

example : LegalAlign 4 := Or.inr ⟨2, rfl⟩

example : demoRead [1, 2, 4] = .ok 124 := by decide +kernel

example : demoRead [0, 3, 4] = .ok 104 := by decide +kernel

example : demoRead [2, 0, 0] = .ub := by decide +kernel

example : demoRead [1, -1, 0] = .throw .badCast ∧ demoRead [1, 1] = .throw .outOfRange := by decide +kernel

end Visr.TFParameter
