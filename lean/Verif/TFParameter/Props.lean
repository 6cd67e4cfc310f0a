import Verif.TFParameter.Spec
import Verif.Efl.PropsMatrix
import Mathlib.Tactic.Common

/-!
# C39: cells of time-frequency parameters do not alias
-/

set_option linter.unusedSectionVars false

namespace Visr.TFParameter
open Visr Visr.Efl

variable {α : Type*} [Zero α]

/-! ## Helpers -/

/-- The storage of `p` holds the cube `t`. -/
structure HoldsTF (p : TF α) (t : Cube α) : Prop where
  channels : p.channels = t.channels
  legal : alignmentAccepted p.mat.align = true
  mat : Holds p.mat ⟨t.frames * t.channels, t.bins, p.mat.align, fun r b => t.elem (r / t.channels) (r % t.channels) b⟩

theorem holds_congr {m : Mat α} {t u : Table α} (h : Holds m t) (hr : t.rows = u.rows) (hc : t.cols = u.cols)
    (ha : t.align = u.align) (he : ∀ r c, r < t.rows → c < t.cols → t.elem r c = u.elem r c) : Holds m u := by
  refine ⟨h.rows.trans hr, h.cols.trans hc, h.align.trans ha, h.stride, h.size, ?_⟩
  intro r c hr' hc'
  rw [h.elem r c hr' hc', he r c (by rw [← h.rows]; exact hr') (by rw [← h.cols]; exact hc')]

omit [Zero α] in
theorem accepted_norm {a : Nat} (h : alignmentAccepted a = true) :
    alignmentAccepted (if a = 0 then 1 else a) = true ∧ (a ≠ 0 → (if a = 0 then 1 else a) = a) := by
  by_cases h0 : a = 0
  · subst h0; exact ⟨by simpa [alignmentAccepted] using h, fun h => absurd rfl h⟩
  · simp [h0, h]

theorem create_tf (bins channels frames align : Nat) (ha : alignmentAccepted align = true) :
    ∃ p, TF.create (α := α) bins channels frames align = .ok p ∧
      HoldsTF p ⟨frames, channels, bins, fun _ _ _ => 0⟩ := by
  have hc := create_holds (α := α) (frames * channels) bins align
  obtain ⟨m', h1, h2⟩ := hc.fill 0
  have hal : m'.align = if align = 0 then 1 else align := by
    unfold Mat.fill at h1; split_ifs at h1; injection h1 with h1; rw [← h1]; simp [*]
    injection h1 with h1; rw [← h1]
    simp [*]
  refine ⟨⟨m', channels⟩, ?_, rfl, ?_, ?_⟩
  · unfold TF.create Mat.create
    simp only [ha, Bool.not_true, Bool.false_eq_true, if_false]
    show (Mat.fill _ 0).bind _ = _
    rw [h1]; rfl
  · show alignmentAccepted m'.align = true
    rw [hal]; exact (accepted_norm ha).1
  · exact holds_congr h2 rfl rfl h2.align.symm (fun _ _ _ _ => rfl)

theorem copyFrom_align {m src m' : Mat α} (h : m.copyFrom src = .ok m') : m'.align = m.align := by
  unfold Mat.copyFrom at h
  split_ifs at h
  · injection h with h; rw [← h]
  · have key : ∀ n m'', copyRows m src n = .ok m'' → m''.align = m.align := by
      intro n
      induction n with
      | zero => intro m'' h; injection h with h; rw [← h]
      | succ n ih =>
        intro m'' h
        rw [copyRows] at h
        cases hc : copyRows m src n with
        | ok a =>
          rw [hc] at h
          simp only at h
          split_ifs at h
          injection h with h
          rw [← h]
          exact ih a hc
        | throw e => rw [hc] at h; cases h
        | ub => rw [hc] at h; cases h
    exact key _ _ h

theorem copy_tf {p : TF α} {t : Cube α} (h : HoldsTF p t) : ∃ q, p.copy = .ok q ∧ HoldsTF q t := by
  have hc := create_holds (α := α) p.mat.rows p.mat.cols p.mat.align
  obtain ⟨m', h1, h2⟩ := (hc.copyFrom h.mat).2 ⟨h.mat.rows, h.mat.cols⟩
  have hal := copyFrom_align h1
  refine ⟨⟨m', p.channels⟩, ?_, h.channels, ?_, ?_⟩
  · unfold TF.copy Mat.create
    simp only [h.legal, Bool.not_true, Bool.false_eq_true, if_false, Outcome.ok_bind]
    rw [h1]; rfl
  · show alignmentAccepted m'.align = true
    rw [hal]; exact (accepted_norm h.legal).1
  · exact holds_congr h2 h.mat.rows h.mat.cols h2.align.symm (fun _ _ _ _ => rfl)

theorem resize_holds (m : Mat α) (rows cols : Nat) :
    Holds (m.resize rows cols) ⟨rows, cols, m.align, fun _ _ => 0⟩ :=
  ⟨rfl, rfl, rfl, rfl, rfl, fun _ _ _ _ => rfl⟩

theorem assign_tf {p rhs : TF α} {t u : Cube α} (h : HoldsTF p t) (hr : HoldsTF rhs u) :
    ∃ q, p.assign rhs = .ok q ∧ HoldsTF q u := by
  have hc := resize_holds p.mat rhs.mat.rows rhs.mat.cols
  obtain ⟨m', h1, h2⟩ := (hc.copyFrom hr.mat).2 ⟨hr.mat.rows, hr.mat.cols⟩
  have hal := copyFrom_align h1
  refine ⟨⟨m', rhs.channels⟩, ?_, hr.channels, ?_, ?_⟩
  · unfold TF.assign
    rw [h1]; rfl
  · show alignmentAccepted m'.align = true
    rw [hal]; exact h.legal
  · exact holds_congr h2 hr.mat.rows hr.mat.cols h2.align.symm (fun _ _ _ _ => rfl)

theorem resize_tf {p : TF α} {t : Cube α} (h : HoldsTF p t) (bins channels frames : Nat) :
    ∃ q, p.resize bins channels frames = .ok q ∧ HoldsTF q ⟨frames, channels, bins, fun _ _ _ => 0⟩ := by
  have hc := resize_holds p.mat (frames * channels) bins
  obtain ⟨m', h1, h2⟩ := hc.fill 0
  refine ⟨⟨m', channels⟩, ?_, rfl, ?_, ?_⟩
  · unfold TF.resize
    rw [h1]; rfl
  · show alignmentAccepted m'.align = true
    rw [h2.align]; exact h.legal
  · exact holds_congr h2 rfl rfl h2.align.symm (fun _ _ _ _ => rfl)

theorem row_lt {f frames c channels : Nat} (hf : f < frames) (hc : c < channels) :
    f * channels + c < frames * channels := by
  have := Nat.mul_le_mul_right channels hf
  rw [Nat.succ_mul] at this
  omega

theorem row_div {f c channels : Nat} (hc : c < channels) :
    (f * channels + c) / channels = f ∧ (f * channels + c) % channels = c := by
  rw [Nat.mul_comm]
  constructor
  · rw [Nat.mul_add_div (by omega), Nat.div_eq_of_lt hc, Nat.add_zero]
  · rw [Nat.mul_add_mod, Nat.mod_eq_of_lt hc]

theorem read_tf {p : TF α} {t : Cube α} (h : HoldsTF p t) {f c b : Nat} (hf : f < t.frames) (hc : c < t.channels)
    (hb : b < t.bins) : p.load (p.atPos f c b) = .ok (t.elem f c b) := by
  have := h.mat.get (r := f * t.channels + c) (c := b) (by rw [h.mat.rows]; exact row_lt hf hc)
    (by rw [h.mat.cols]; exact hb)
  unfold TF.load TF.atPos rowPos
  unfold Mat.get at this
  rw [h.channels, this]
  simp only [(row_div hc).1, (row_div hc).2]

theorem write_tf {p : TF α} {t : Cube α} (h : HoldsTF p t) {f c b : Nat} (hf : f < t.frames) (hc : c < t.channels)
    (hb : b < t.bins) (v : α) : ∃ q, p.save (p.atPos f c b) v = .ok q ∧
      HoldsTF q { t with elem := fun f' c' b' => if f' = f ∧ c' = c ∧ b' = b then v else t.elem f' c' b' } := by
  obtain ⟨m', h1, h2, h3⟩ := h.mat.put (r := f * t.channels + c) (c := b) (by rw [h.mat.rows]; exact row_lt hf hc)
    (by rw [h.mat.cols]; exact hb) v
  unfold Mat.put at h1
  split_ifs at h1 with hp
  injection h1 with h1
  refine ⟨⟨m', p.channels⟩, ?_, h.channels, ?_, ?_⟩
  · unfold TF.save TF.atPos rowPos
    rw [h.channels, if_pos hp, h1]
  · show alignmentAccepted m'.align = true
    rw [h3.align]; exact h.legal
  · refine holds_congr h3 rfl rfl h3.align.symm ?_
    intro r b' hr hb'
    simp only
    have hch : 0 < t.channels := by omega
    have : (r = f * t.channels + c ∧ b' = b) ↔ (r / t.channels = f ∧ r % t.channels = c ∧ b' = b) := by
      constructor
      · rintro ⟨rfl, rfl⟩
        exact ⟨(row_div hc).1, (row_div hc).2, rfl⟩
      · rintro ⟨rfl, rfl, rfl⟩
        refine ⟨?_, rfl⟩
        rw [Nat.mul_comm]; exact (Nat.div_add_mod _ _).symm
    by_cases hx : r = f * t.channels + c ∧ b' = b
    · rw [if_pos hx, if_pos (this.mp hx)]
    · rw [if_neg hx, if_neg (fun hy => hx (this.mpr hy))]

/-- All objects of a program hold their cubes. -/
def HoldsAllTF (s : Nat → Option (TF α)) (S : Nat → Option (Cube α)) : Prop :=
  ∀ i, (s i = none ∧ S i = none) ∨ ∃ p t, s i = some p ∧ S i = some t ∧ HoldsTF p t

theorem HoldsAllTF.set {s : Nat → Option (TF α)} {S : Nat → Option (Cube α)} (h : HoldsAllTF s S) (i : Nat)
    {p : TF α} {t : Cube α} (hp : HoldsTF p t) : HoldsAllTF (setObj s i p) (setObj S i t) := by
  intro k
  unfold setObj
  by_cases hk : k = i
  · right; exact ⟨p, t, by simp [hk], by simp [hk], hp⟩
  · simpa [hk] using h k

theorem step_holds {s : Nat → Option (TF α)} {S : Nat → Option (Cube α)} (h : HoldsAllTF s S) (op : Op α)
    (hop : Contract S op) :
    HoldsAllTF (step s op).1 (cubeStep S op).1 ∧ (step s op).2 = (cubeStep S op).2 := by
  classical
  cases op with
  | empty i align =>
    have hiff := alignmentAccepted_iff hop
    simp only [step, cubeStep, TF.empty]
    by_cases ha : alignmentAccepted align = true
    · have hl := hiff.mp ha
      simp only [ha, hl, Bool.not_true, Bool.false_eq_true, if_false, if_true, keep]
      refine ⟨h.set i ⟨rfl, (accepted_norm ha).1, rfl, rfl, rfl, ?_, rfl, ?_⟩, by trivial⟩
      · exact ((Nat.le_antisymm (by
          unfold nextAlignedSize
          simp) (Nat.zero_le _)) : _ = 0).symm
      · intro r c hr; exact absurd hr (Nat.not_lt_zero _)
    · have hl : ¬ LegalAlign align := fun hl => ha (hiff.mpr hl)
      simp only [ha, hl, keep, Bool.not_eq_true, Bool.not_false, if_true, if_false, Bool.eq_false_iff.mpr ha]
      exact ⟨h, by trivial⟩
  | create i bins channels frames align =>
    have hiff := alignmentAccepted_iff hop
    simp only [step, cubeStep]
    by_cases ha : alignmentAccepted align = true
    · have hl := hiff.mp ha
      obtain ⟨p, h1, h2⟩ := create_tf (α := α) bins channels frames align ha
      simp only [h1, hl, if_true, keep]
      exact ⟨h.set i h2, by trivial⟩
    · have hl : ¬ LegalAlign align := fun hl => ha (hiff.mpr hl)
      have : TF.create (α := α) bins channels frames align = .throw .invalidArgument := by
        unfold TF.create Mat.create
        simp [ha]
      simp only [this, hl, if_false, keep]
      exact ⟨h, by trivial⟩
  | copy i j =>
    simp only [step, cubeStep]
    rcases h j with ⟨h1, h2⟩ | ⟨p, t, h1, h2, h3⟩
    · simp only [h1, h2]; exact ⟨h, by trivial⟩
    · obtain ⟨q, h4, h5⟩ := copy_tf h3
      simp only [h1, h2, h4, keep]
      exact ⟨h.set i h5, by trivial⟩
  | assign i j =>
    simp only [step, cubeStep]
    rcases h i with ⟨h1, h2⟩ | ⟨p, t, h1, h2, h3⟩
    · simp only [h1, h2]; exact ⟨h, by trivial⟩
    · rcases h j with ⟨k1, k2⟩ | ⟨r, u, k1, k2, k3⟩
      · simp only [h1, h2, k1, k2]; exact ⟨h, by trivial⟩
      · obtain ⟨q, h4, h5⟩ := assign_tf h3 k3
        simp only [h1, h2, k1, k2]
        by_cases hij : i = j
        · rw [if_pos hij]
          refine ⟨?_, by trivial⟩
          have : setObj S i u = S := by
            funext k
            unfold setObj
            by_cases hk : k = i
            · rw [if_pos hk, hk, hij, k2]
            · rw [if_neg hk]
          rw [this]; exact h
        · rw [if_neg hij]
          simp only [h4, keep]
          exact ⟨h.set i h5, by trivial⟩
  | resize i bins channels frames =>
    simp only [step, cubeStep]
    rcases h i with ⟨h1, h2⟩ | ⟨p, t, h1, h2, h3⟩
    · simp only [h1, h2]; exact ⟨h, by trivial⟩
    · obtain ⟨q, h4, h5⟩ := resize_tf h3 bins channels frames
      simp only [h1, h2, h4, keep]
      exact ⟨h.set i h5, by trivial⟩
  | read i f c b =>
    simp only [step, cubeStep]
    rcases h i with ⟨h1, h2⟩ | ⟨p, t, h1, h2, h3⟩
    · simp only [h1, h2]; exact ⟨h, by trivial⟩
    · obtain ⟨a1, a2, a3⟩ := hop t h2
      simp only [h1, h2, read_tf h3 a1 a2 a3]
      exact ⟨h, by trivial⟩
  | write i f c b v =>
    simp only [step, cubeStep]
    rcases h i with ⟨h1, h2⟩ | ⟨p, t, h1, h2, h3⟩
    · simp only [h1, h2]; exact ⟨h, by trivial⟩
    · obtain ⟨a1, a2, a3⟩ := hop t h2
      obtain ⟨q, h4, h5⟩ := write_tf h3 a1 a2 a3 v
      simp only [h1, h2, h4, keep]
      exact ⟨h.set i h5, by trivial⟩
  | numberOfFrames i =>
    simp only [step, cubeStep]
    rcases h i with ⟨h1, h2⟩ | ⟨p, t, h1, h2, h3⟩
    · simp only [h1, h2]; exact ⟨h, by trivial⟩
    · have a1 := hop t h2
      have : p.numberOfFrames = .ok t.frames := by
        unfold TF.numberOfFrames
        rw [h3.channels, if_neg (by omega), h3.mat.rows]
        exact congrArg Outcome.ok (Nat.mul_div_cancel _ a1)
      simp only [h1, h2, this]
      exact ⟨h, by trivial⟩
  | numberOfChannels i =>
    simp only [step, cubeStep]
    rcases h i with ⟨h1, h2⟩ | ⟨p, t, h1, h2, h3⟩
    · simp only [h1, h2]; exact ⟨h, by trivial⟩
    · simp only [h1, h2, h3.channels]; exact ⟨h, by trivial⟩
  | numberOfDftBins i =>
    simp only [step, cubeStep]
    rcases h i with ⟨h1, h2⟩ | ⟨p, t, h1, h2, h3⟩
    · simp only [h1, h2]; exact ⟨h, by trivial⟩
    · simp only [h1, h2, h3.mat.cols]; exact ⟨h, by trivial⟩

theorem run_holds (ops : List (Op α)) : ∀ (s : Nat → Option (TF α)) (S : Nat → Option (Cube α)), HoldsAllTF s S →
    Contracts S ops → HoldsAllTF (final step s ops) (final cubeStep S ops) ∧
      (run step s ops).2 = (run cubeStep S ops).2 := by
  induction ops with
  | nil => intro s S h _; exact ⟨h, rfl⟩
  | cons op ops ih =>
    intro s S h hc
    obtain ⟨h1, h2⟩ := step_holds h op hc.1
    obtain ⟨h3, h4⟩ := ih _ _ h1 hc.2
    refine ⟨by simpa using h3, ?_⟩
    simp only [run, h2, h4]

/-! ## Theorems -/

/-- Programs that respect the contracts observe three-dimensional tables: the results of all calls, reads
included, are those of the specification, whose writes change one cell and nothing else.  In particular no call
is undefined. -/
theorem parameter_is_cube (ops : List (Op α)) (hops : Contracts (fun _ => none) ops) :
    (run step (fun _ => none) ops).2 = (run cubeStep (fun _ => none) ops).2 :=
  (run_holds ops _ _ (fun _ => Or.inl ⟨rfl, rfl⟩) hops).2

/-- Two different cells inside the dimensions have different positions in the storage, both inside it. -/
theorem cells_distinct (ops : List (Op α)) (hops : Contracts (fun _ => none) ops) (i : Nat) (p : TF α) (t : Cube α)
    (hp : final step (fun _ => none) ops i = some p) (ht : final cubeStep (fun _ => none) ops i = some t)
    (f c b f' c' b' : Nat) (hf : f < t.frames) (hc : c < t.channels) (hb : b < t.bins)
    (hc' : c' < t.channels) (hb' : b' < t.bins) :
    p.atPos f c b < p.mat.size ∧ (p.atPos f c b = p.atPos f' c' b' → f = f' ∧ c = c' ∧ b = b') := by
  have hh : HoldsTF p t := by
    rcases (run_holds ops _ _ (fun _ => Or.inl ⟨rfl, rfl⟩) hops).1 i with ⟨h1, _⟩ | ⟨q, u, h1, h2, h3⟩
    · rw [hp] at h1; cases h1
    · rw [hp] at h1; rw [ht] at h2
      injection h1 with h1; injection h2 with h2
      subst h1; subst h2; exact h3
  have hle := hh.mat.le
  have hcols := hh.mat.cols
  have hrows := hh.mat.rows
  simp only at hcols hrows
  unfold TF.atPos rowPos
  rw [hh.channels]
  constructor
  · rw [hh.mat.size]
    exact pos_lt (by rw [hrows]; exact row_lt hf hc) (by omega)
  · intro he
    obtain ⟨h1, h2⟩ := pos_inj (by omega) (by omega) he
    obtain ⟨h3, h4⟩ := pos_inj hc hc' h1
    exact ⟨h3, h4, h2⟩

/-- The pointers returned by `data()`, `frameSlice()` and `channelSlice()`, offset by multiples of the documented
strides, point to the cells of `at()`. -/
theorem slices_agree (p : TF α) (f c b : Nat) :
    p.channelSlice f c + b = p.atPos f c b ∧
    p.frameSlice f + c * p.channelStride + b = p.atPos f c b ∧
    f * p.frameStride + c * p.channelStride + b = p.atPos f c b := by
  unfold TF.channelSlice TF.frameSlice TF.frameStride TF.channelStride TF.atPos rowPos
  refine ⟨rfl, ?_, ?_⟩
  · rw [Nat.add_mul]
  · rw [Nat.add_mul, Nat.mul_comm p.mat.stride, Nat.mul_assoc]

/-- A real-to-complex transform of length `n` has bins `0 … ⌊n/2⌋`: the frequencies `k` with `2 k ≤ n`. -/
theorem bins_real_to_complex (n k : Nat) : k < numberOfBinsRealToComplex n ↔ 2 * k ≤ n := by
  unfold numberOfBinsRealToComplex
  omega

/-- Finding: `numberOfFrames()` of an object without channels, for instance of a default constructed one, divides
by zero. -/
theorem frames_without_channels (align : Nat) (p : TF α) (h : TF.empty align = .ok p) :
    p.numberOfFrames = .ub := by
  unfold TF.empty at h
  split_ifs at h <;> (injection h with h; rw [← h]; rfl)

example : (TF.empty 4 : Outcome (TF Int)).isOk = true := by decide

/-- A program with two objects: cells are written, one object is assigned to the other, which has another
alignment, and cells are read. -/
def demo : List (Op Int) :=
  [.create 0 3 2 2 4, .empty 1 0, .write 0 1 0 2 7, .write 0 1 1 2 9, .assign 1 0, .write 0 1 0 2 8, .read 1 1 0 2,
    .read 0 1 0 2, .numberOfFrames 1]

example : Contracts (fun _ => none) demo := by
  have l4 : LegalAlign 4 := Or.inr ⟨2, rfl⟩
  have l0 : LegalAlign 0 := Or.inl rfl
  simp [demo, Contracts, Contract, cubeStep, setObj, l4, l0]

end Visr.TFParameter
