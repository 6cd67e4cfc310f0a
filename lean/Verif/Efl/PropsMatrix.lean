import Verif.Efl.SpecMatrix
import Verif.Efl.PropsAligned

/-!
# C19: matrices
-/

set_option linter.unusedSectionVars false

namespace Visr.Efl
open Visr

variable {α : Type*} [Zero α]

/-- The storage of `m` holds the table `t`. -/
structure Holds (m : Mat α) (t : Table α) : Prop where
  rows : m.rows = t.rows
  cols : m.cols = t.cols
  align : m.align = t.align
  stride : m.stride = nextAlignedSize m.cols m.align
  size : m.size = m.stride * m.rows
  elem : ∀ r c, r < m.rows → c < m.cols → m.data (r * m.stride + c) = t.elem r c

theorem le_nextAlignedSize (n a : Nat) : n ≤ nextAlignedSize n a := by
  rcases Nat.eq_zero_or_pos a with h | h
  · rw [(nextAlignedSize_spec n a).1 h]
  · exact ((nextAlignedSize_spec n a).2 h).1

theorem Holds.le {m : Mat α} {t : Table α} (h : Holds m t) : m.cols ≤ m.stride := by
  rw [h.stride]; exact le_nextAlignedSize _ _

/-- Positions of different elements differ. -/
theorem pos_inj {stride r c r' c' : Nat} (hc : c < stride) (hc' : c' < stride)
    (h : r * stride + c = r' * stride + c') : r = r' ∧ c = c' := by
  have hs : 0 < stride := by omega
  have h1 : (r * stride + c) / stride = r := by
    rw [Nat.mul_comm, Nat.mul_add_div hs, Nat.div_eq_of_lt hc, Nat.add_zero]
  have h2 : (r' * stride + c') / stride = r' := by
    rw [Nat.mul_comm, Nat.mul_add_div hs, Nat.div_eq_of_lt hc', Nat.add_zero]
  have : r = r' := by rw [← h1, h, h2]
  subst this
  exact ⟨rfl, by omega⟩

theorem pos_lt {stride rows r c : Nat} (hr : r < rows) (hc : c < stride) : r * stride + c < stride * rows := by
  have := Nat.mul_le_mul_left stride hr
  rw [Nat.mul_succ] at this
  have e : r * stride = stride * r := Nat.mul_comm _ _
  omega

theorem row_end {stride rows r cols : Nat} (hr : r < rows) (hc : cols ≤ stride) : r * stride + cols ≤ stride * rows := by
  have := Nat.mul_le_mul_left stride hr
  rw [Nat.mul_succ] at this
  have e : r * stride = stride * r := Nat.mul_comm _ _
  omega

/-- Reading a row of the storage after writing a row. -/
theorem writeAt_row {data : Nat → α} {stride row r c : Nat} {vals : List α} (hv : vals.length ≤ stride) (hc : c < stride) :
    writeAt data (row * stride) vals (r * stride + c) =
      if r = row then (vals[c]?).getD (data (r * stride + c)) else data (r * stride + c) := by
  unfold writeAt
  by_cases hr : r = row
  · subst hr
    simp
  · rw [if_neg hr]
    split_ifs with h
    · have hlt : row < r := by
        by_contra hn
        have : r < row := by omega
        have h2 := Nat.mul_le_mul_right stride this
        rw [Nat.succ_mul] at h2
        omega
      have h2 := Nat.mul_le_mul_right stride hlt
      rw [Nat.succ_mul] at h2
      have : vals[r * stride + c - row * stride]? = none := by
        rw [List.getElem?_eq_none_iff]; omega
      rw [this]; rfl
    · rfl

/-- The program state holds the abstract state. -/
def HoldsAll (s : Nat → Option (Mat α)) (S : Nat → Option (Table α)) : Prop :=
  ∀ i, (s i = none ∧ S i = none) ∨ ∃ m t, s i = some m ∧ S i = some t ∧ Holds m t

theorem HoldsAll.set {s : Nat → Option (Mat α)} {S : Nat → Option (Table α)} (h : HoldsAll s S) (i : Nat) {m : Mat α}
    {t : Table α} (hm : Holds m t) : HoldsAll (setObj s i m) (setObj S i t) := by
  intro k
  by_cases hk : k = i
  · exact Or.inr ⟨m, t, by simp [setObj, hk], by simp [setObj, hk], hm⟩
  · rcases h k with h | ⟨m', t', h⟩
    · left; simpa [setObj, hk] using h
    · right; exact ⟨m', t', by simpa [setObj, hk] using h⟩

theorem alignmentAccepted_iff {align : Nat} (h64 : align < 2 ^ 64) : alignmentAccepted align = true ↔ LegalAlign align := by
  unfold alignmentAccepted LegalAlign
  rw [alignmentIsPowerOfTwo_iff, BitVec.toNat_ofNat, Nat.mod_eq_of_lt (by split_ifs <;> omega)]
  split_ifs with h
  · exact ⟨fun _ => Or.inl h, fun _ => ⟨0, rfl⟩⟩
  · simp [h]

theorem nextAlignedSize_max (n a : Nat) : nextAlignedSize n (max a 1) = nextAlignedSize n a := by
  unfold nextAlignedSize
  rcases Nat.eq_zero_or_pos a with h | h
  · subst h; simp [Nat.mod_one]
  · rw [show max a 1 = a by omega]

theorem initRows_ok {stride cols size : Nat} (hcs : cols ≤ stride) (vals : List (List α)) :
    ∀ (data : Nat → α) (k : Nat), (k + vals.length) * stride ≤ size →
      (¬ (∀ r ∈ vals, r.length = cols) → initRows stride cols size data k vals = .throw .invalidArgument) ∧
      ((∀ r ∈ vals, r.length = cols) → ∃ d, initRows stride cols size data k vals = .ok d ∧
        ∀ r c, c < cols → d (r * stride + c) =
          if k ≤ r ∧ r < k + vals.length then ((vals[r - k]?.bind fun l => l[c]?).getD 0) else data (r * stride + c)) := by
  induction vals with
  | nil =>
    intro data k _
    refine ⟨fun h => absurd (by simp) h, fun _ => ⟨data, rfl, ?_⟩⟩
    intro r c _
    rw [if_neg (by simp)]
  | cons v vals ih =>
    intro data k hsz
    have hsz' : (k + 1 + vals.length) * stride ≤ size := by
      have : k + 1 + vals.length = k + (v :: vals).length := by simp; omega
      rw [this]; exact hsz
    have hroom : ¬ (k * stride + cols > size) := by
      have : (k + 1) * stride ≤ (k + (v :: vals).length) * stride := Nat.mul_le_mul_right _ (by simp)
      rw [Nat.succ_mul] at this; omega
    by_cases hv : v.length = cols
    · obtain ⟨h1, h2⟩ := ih (writeAt data (k * stride) v) (k + 1) hsz'
      simp only [initRows, hv, ne_eq, not_true_eq_false, if_false, hroom]
      refine ⟨fun h => h1 (fun hall => h (by simpa [hv] using hall)), fun h => ?_⟩
      obtain ⟨d, hd, hel⟩ := h2 (fun r hr => h r (by simp [hr]))
      refine ⟨d, hd, ?_⟩
      intro r c hc
      rw [hel r c hc, writeAt_row (by omega) (by omega)]
      by_cases hrk : r = k
      · subst hrk
        have hc' : c < v.length := by omega
        simp [hc']
      · by_cases hin : k + 1 ≤ r ∧ r < k + 1 + vals.length
        · rw [if_pos hin, if_pos (by simp; omega)]
          rw [show r - k = (r - (k + 1)) + 1 by omega, List.getElem?_cons_succ]
        · rw [if_neg hin, if_neg hrk, if_neg (by simp; omega)]
    · simp only [initRows, hv, ne_eq, not_false_eq_true, if_true]
      exact ⟨fun _ => trivial, fun h => absurd (h v (by simp)) hv⟩

theorem Holds.fill {m : Mat α} {t : Table α} (h : Holds m t) (v : α) :
    ∃ m', m.fill v = .ok m' ∧ Holds m' { t with elem := fun _ _ => v } := by
  unfold Mat.fill
  rw [if_neg (by rw [h.size]; omega)]
  refine ⟨_, rfl, h.rows, h.cols, h.align, h.stride, h.size, ?_⟩
  intro r c hr hc
  have hle := h.le
  have hc : c < m.cols := hc
  have hr : r < m.rows := hr
  show (if r * m.stride + c < m.stride * m.rows then v else _) = v
  exact if_pos (pos_lt hr (by omega))

theorem Holds.get {m : Mat α} {t : Table α} (h : Holds m t) {r c : Nat} (hr : r < m.rows) (hc : c < m.cols) :
    m.get r c = .ok (t.elem r c) := by
  have := h.le
  unfold Mat.get
  rw [if_pos (by rw [h.size]; exact pos_lt hr (by omega)), h.elem r c hr hc]

theorem Holds.put {m : Mat α} {t : Table α} (h : Holds m t) {r c : Nat} (hr : r < m.rows) (hc : c < m.cols) (v : α) :
    ∃ m', m.put r c v = .ok m' ∧ m'.rows = m.rows ∧
      Holds m' { t with elem := fun r' c' => if r' = r ∧ c' = c then v else t.elem r' c' } := by
  have hle := h.le
  unfold Mat.put
  rw [if_pos (by rw [h.size]; exact pos_lt hr (by omega))]
  refine ⟨_, rfl, rfl, h.rows, h.cols, h.align, h.stride, h.size, ?_⟩
  intro r' c' hr' hc'
  have hr' : r' < m.rows := hr'
  have hc' : c' < m.cols := hc'
  show (if r' * m.stride + c' = r * m.stride + c then v else m.data (r' * m.stride + c')) = _
  by_cases he : r' = r ∧ c' = c
  · rw [if_pos (by rw [he.1, he.2])]; simp [he]
  · rw [if_neg (fun hx => he (pos_inj (by omega) (by omega) hx)), h.elem r' c' hr' hc']; simp [he]

theorem Holds.setRow {m : Mat α} {t : Table α} (h : Holds m t) {row : Nat} {vals : List α} (hr : row < m.rows)
    (hv : m.cols ≤ vals.length) :
    ∃ m', m.setRow row vals = .ok m' ∧
      Holds m' { t with elem := fun r c => if r = row then vals[c]?.getD 0 else t.elem r c } := by
  have hle := h.le
  unfold Mat.setRow
  rw [if_neg (by omega), if_neg (by rw [h.size]; have := row_end hr hle; omega)]
  refine ⟨_, rfl, h.rows, h.cols, h.align, h.stride, h.size, ?_⟩
  intro r c hr' hc'
  have hr' : r < m.rows := hr'
  have hc' : c < m.cols := hc'
  show writeAt m.data (row * m.stride) (vals.take m.cols) (r * m.stride + c) = _
  rw [writeAt_row (by rw [List.length_take]; omega) (by omega)]
  by_cases he : r = row
  · have : c < vals.length := by omega
    simp [he, hc', this]
  · simp [he, h.elem r c hr' hc']

theorem Holds.setColumn {m : Mat α} {t : Table α} (h : Holds m t) {col : Nat} {vals : List α} (hc : col < m.cols)
    (hv : m.rows ≤ vals.length) :
    ∃ m', m.setColumn col vals = .ok m' ∧
      Holds m' { t with elem := fun r c => if c = col then vals[r]?.getD 0 else t.elem r c } := by
  have key : ∀ n, n ≤ m.rows → ∃ m', setColumnLoop m col vals n = .ok m' ∧ m'.rows = m.rows ∧ m'.cols = m.cols ∧
      Holds m' { t with elem := fun r c => if r < n ∧ c = col then vals[r]?.getD 0 else t.elem r c } := by
    intro n
    induction n with
    | zero => intro _; exact ⟨m, rfl, rfl, rfl, by simpa using h⟩
    | succ n ih =>
      intro hn
      obtain ⟨m', h1, h2, h2', h3⟩ := ih (by omega)
      have hvn : n < vals.length := by omega
      simp only [setColumnLoop, h1, List.getElem?_eq_getElem hvn]
      obtain ⟨m'', h4, h5, h6⟩ := h3.put (r := n) (c := col) (by omega) (by omega) vals[n]
      refine ⟨m'', h4, by rw [h5, h2], by rw [h6.cols, ← h3.cols, h2'], ?_⟩
      convert h6 using 2
      funext r c
      by_cases hcc : c = col
      · by_cases hrn : r = n
        · subst hrn; simp [hcc, hvn]
        · have : (r < n + 1) ↔ r < n := by omega
          simp [hcc, hrn, this]
      · simp [hcc]
  obtain ⟨m', h1, h2, _, h3⟩ := key m.rows le_rfl
  refine ⟨m', h1, ⟨h3.rows, h3.cols, h3.align, h3.stride, h3.size, ?_⟩⟩
  intro r c hr hc'
  rw [h3.elem r c hr hc']
  rw [h2] at hr
  simp [hr]

theorem Holds.copyFrom {m src : Mat α} {t u : Table α} (h : Holds m t) (hs : Holds src u) :
    (¬ (t.rows = u.rows ∧ t.cols = u.cols) → m.copyFrom src = .throw .invalidArgument) ∧
    ((t.rows = u.rows ∧ t.cols = u.cols) → ∃ m', m.copyFrom src = .ok m' ∧ Holds m' { t with elem := u.elem }) := by
  unfold Mat.copyFrom
  constructor
  · intro hn
    rw [if_pos]
    rw [h.rows, h.cols, hs.rows, hs.cols]
    tauto
  · rintro ⟨hr, hc⟩
    have er : m.rows = src.rows := by rw [h.rows, hs.rows, hr]
    have ec : m.cols = src.cols := by rw [h.cols, hs.cols, hc]
    rw [if_neg (by simp [er, ec])]
    have hle := h.le
    have hles := hs.le
    by_cases hst : src.stride = m.stride
    · rw [if_pos hst, if_neg (by rw [hs.size, h.size, hst, er, Nat.mul_comm]; omega)]
      refine ⟨_, rfl, h.rows, h.cols, h.align, h.stride, h.size, ?_⟩
      intro r c hr' hc'
      have hr' : r < m.rows := hr'
      have hc' : c < m.cols := hc'
      show (if r * m.stride + c < m.rows * m.stride then src.data (r * m.stride + c) else _) = _
      rw [if_pos (by rw [Nat.mul_comm m.rows]; exact pos_lt hr' (by omega)), ← hst, hs.elem r c (by omega) (by omega)]
    · rw [if_neg hst]
      have key : ∀ n, n ≤ m.rows → ∃ m', copyRows m src n = .ok m' ∧ m'.stride = m.stride ∧
          Holds m' { t with elem := fun r c => if r < n then u.elem r c else t.elem r c } := by
        intro n
        induction n with
        | zero => intro _; exact ⟨m, rfl, rfl, by simpa using h⟩
        | succ n ih =>
          intro hn
          obtain ⟨m', h1, h2, h3⟩ := ih (by omega)
          have e1 := row_end (stride := src.stride) (rows := src.rows) (r := n) (cols := m.cols) (by omega) (by omega)
          have e2 := row_end (stride := m.stride) (rows := m.rows) (r := n) (cols := m.cols) (by omega) (by omega)
          simp only [copyRows, h1]
          rw [if_neg (by rw [hs.size, h.size]; omega)]
          have e3 : m'.cols = m.cols := by rw [h3.cols, h.cols]
          refine ⟨_, rfl, h2, h3.rows, h3.cols, h3.align, h3.stride, h3.size, ?_⟩
          intro r c hr' hc'
          have hr' : r < m'.rows := hr'
          have hc' : c < m'.cols := hc'
          have e4 : m'.rows = m.rows := by rw [h3.rows, h.rows]
          show writeAt m'.data (n * m.stride) _ (r * m'.stride + c) = _
          rw [h2, writeAt_row (by simp; omega) (by omega)]
          have := h3.elem r c hr' hc'
          rw [h2] at this
          by_cases hrn : r = n
          · subst hrn
            have hcm : c < m.cols := by omega
            simp [hcm, hs.elem r c (by omega) (by omega)]
          · rw [if_neg hrn, this]
            have : (r < n + 1) ↔ r < n := by omega
            simp [this]
      obtain ⟨m', h1, h2, h3⟩ := key m.rows le_rfl
      refine ⟨m', h1, ⟨h3.rows, h3.cols, h3.align, h3.stride, h3.size, ?_⟩⟩
      intro r c hr' hc'
      rw [h3.elem r c hr' hc']
      have : r < m.rows := by rw [h.rows]; have := h3.rows; simp at this; omega
      simp [this]

theorem create_holds (rows cols align : Nat) :
    Holds (α := α) ⟨nextAlignedSize cols align, rows, cols, if align = 0 then 1 else align, nextAlignedSize cols align * rows,
      fun _ => 0⟩ ⟨rows, cols, max align 1, fun _ _ => 0⟩ := by
  have hmax : (if align = 0 then 1 else align) = max align 1 := by split_ifs <;> omega
  refine ⟨rfl, rfl, hmax, ?_, rfl, fun _ _ _ _ => rfl⟩
  show nextAlignedSize cols align = nextAlignedSize cols (if align = 0 then 1 else align)
  rw [hmax, nextAlignedSize_max]

theorem matStep_holds {s : Nat → Option (Mat α)} {S : Nat → Option (Table α)} (h : HoldsAll s S) (op : MatOp α)
    (hop : Contract S op) :
    HoldsAll (matStep s op).1 (tableStep S op).1 ∧ (matStep s op).2 = (tableStep S op).2 := by
  classical
  cases op with
  | create i rows cols align =>
    simp only [matStep, tableStep, Mat.create]
    have hiff := alignmentAccepted_iff hop
    by_cases hl : LegalAlign align
    · simp only [hl, if_true, hiff.mpr hl, Bool.not_true, Bool.false_eq_true, if_false, store]
      exact ⟨h.set i (create_holds rows cols align), trivial⟩
    · have : alignmentAccepted align = false := by
        cases hx : alignmentAccepted align
        · rfl
        · exact absurd (hiff.mp hx) hl
      simp only [hl, this, Bool.not_false, if_true, if_false, store]
      exact ⟨h, trivial⟩
  | createFrom i rows cols align vals junk =>
    simp only [matStep, tableStep, Mat.createFrom]
    have hiff := alignmentAccepted_iff hop
    by_cases hl : LegalAlign align
    · simp only [hl, true_and, hiff.mpr hl, Bool.not_true, Bool.false_eq_true, if_false]
      by_cases hr : vals.length = rows
      · have hcs := le_nextAlignedSize cols align
        obtain ⟨h1, h2⟩ := initRows_ok (size := nextAlignedSize cols align * rows) hcs vals junk 0
          (by rw [Nat.zero_add, hr, Nat.mul_comm])
        simp only [hr, ne_eq, not_true_eq_false, if_false, true_and]
        by_cases hc : ∀ r ∈ vals, r.length = cols
        · obtain ⟨d, hd, hel⟩ := h2 hc
          rw [if_pos hc, hd]
          have hmax : (if align = 0 then 1 else align) = max align 1 := by split_ifs <;> omega
          refine ⟨h.set i ⟨rfl, rfl, hmax, ?_, rfl, ?_⟩, rfl⟩
          · show nextAlignedSize cols align = nextAlignedSize cols (if align = 0 then 1 else align)
            rw [hmax, nextAlignedSize_max]
          · intro r c hr' hc'
            have hr' : r < rows := hr'
            show d (r * nextAlignedSize cols align + c) = _
            rw [hel r c hc', if_pos (by omega)]
            simp
        · rw [if_neg hc, h1 hc]
          exact ⟨h, rfl⟩
      · simp only [hr, ne_eq, not_false_eq_true, if_true, false_and, if_false, store]
        exact ⟨h, trivial⟩
    · have : alignmentAccepted align = false := by
        cases hx : alignmentAccepted align
        · rfl
        · exact absurd (hiff.mp hx) hl
      simp only [hl, this, Bool.not_false, if_true, false_and, if_false, store]
      exact ⟨h, trivial⟩
  | resize i rows cols =>
    simp only [matStep, tableStep]
    rcases h i with ⟨h1, h2⟩ | ⟨m, t, h1, h2, h3⟩
    · rw [h1, h2]; exact ⟨h, rfl⟩
    · rw [h1, h2]
      refine ⟨h.set i ⟨rfl, rfl, h3.align, ?_, rfl, fun _ _ _ _ => rfl⟩, rfl⟩
      rfl
  | fill i v =>
    simp only [matStep, tableStep]
    rcases h i with ⟨h1, h2⟩ | ⟨m, t, h1, h2, h3⟩
    · rw [h1, h2]; exact ⟨h, rfl⟩
    · obtain ⟨m', h4, h5⟩ := h3.fill v
      simp only [h1, h2, h4]
      exact ⟨h.set i h5, rfl⟩
  | read i row col =>
    simp only [matStep, tableStep]
    rcases h i with ⟨h1, h2⟩ | ⟨m, t, h1, h2, h3⟩
    · rw [h1, h2]; exact ⟨h, rfl⟩
    · simp only [h1, h2]
      refine ⟨h, ?_⟩
      unfold Mat.at
      by_cases hin : row < t.rows ∧ col < t.cols
      · rw [if_pos hin, if_neg (by rw [h3.rows, h3.cols]; omega),
          h3.get (by rw [h3.rows]; exact hin.1) (by rw [h3.cols]; exact hin.2)]
        rfl
      · rw [if_neg hin, if_pos (by rw [h3.rows, h3.cols]; omega)]
        rfl
  | write i row col v =>
    simp only [matStep, tableStep]
    rcases h i with ⟨h1, h2⟩ | ⟨m, t, h1, h2, h3⟩
    · rw [h1, h2]; exact ⟨h, rfl⟩
    · simp only [h1, h2]
      unfold Mat.setAt
      by_cases hin : row < t.rows ∧ col < t.cols
      · obtain ⟨m', h4, _, h5⟩ := h3.put (r := row) (c := col) (by rw [h3.rows]; exact hin.1)
          (by rw [h3.cols]; exact hin.2) v
        rw [if_pos hin, if_neg (by rw [h3.rows, h3.cols]; omega), h4]
        exact ⟨h.set i h5, rfl⟩
      · rw [if_neg hin, if_pos (by rw [h3.rows, h3.cols]; omega)]
        exact ⟨h, rfl⟩
  | setRow i row vals =>
    simp only [matStep, tableStep]
    rcases h i with ⟨h1, h2⟩ | ⟨m, t, h1, h2, h3⟩
    · rw [h1, h2]; exact ⟨h, rfl⟩
    · obtain ⟨hr, hv⟩ := hop t h2
      obtain ⟨m', h4, h5⟩ := h3.setRow (row := row) (vals := vals) (by rw [h3.rows]; exact hr)
        (by rw [h3.cols]; exact hv)
      simp only [h1, h2, h4]
      exact ⟨h.set i h5, rfl⟩
  | setColumn i col vals =>
    simp only [matStep, tableStep]
    rcases h i with ⟨h1, h2⟩ | ⟨m, t, h1, h2, h3⟩
    · rw [h1, h2]; exact ⟨h, rfl⟩
    · obtain ⟨hr, hv⟩ := hop t h2
      obtain ⟨m', h4, h5⟩ := h3.setColumn (col := col) (vals := vals) (by rw [h3.cols]; exact hr)
        (by rw [h3.rows]; exact hv)
      simp only [h1, h2, h4]
      exact ⟨h.set i h5, rfl⟩
  | copy i j =>
    simp only [matStep, tableStep]
    rcases h i with ⟨h1, h2⟩ | ⟨m, t, h1, h2, h3⟩
    · rw [h1, h2]; exact ⟨h, rfl⟩
    · rcases h j with ⟨k1, k2⟩ | ⟨m', t', k1, k2, k3⟩
      · rw [h1, h2, k1, k2]; exact ⟨h, rfl⟩
      · obtain ⟨c1, c2⟩ := h3.copyFrom k3
        simp only [h1, h2, k1, k2]
        by_cases hd : t.rows = t'.rows ∧ t.cols = t'.cols
        · obtain ⟨x, hx1, hx2⟩ := c2 hd
          rw [hx1, if_pos hd]
          exact ⟨h.set i hx2, rfl⟩
        · rw [c1 hd, if_neg hd]
          exact ⟨h, rfl⟩
  | swap i j =>
    simp only [matStep, tableStep]
    rcases h i with ⟨h1, h2⟩ | ⟨m, t, h1, h2, h3⟩
    · rw [h1, h2]; exact ⟨h, rfl⟩
    · rcases h j with ⟨k1, k2⟩ | ⟨m', t', k1, k2, k3⟩
      · rw [h1, h2, k1, k2]; exact ⟨h, rfl⟩
      · simp only [h1, h2, k1, k2]
        unfold Mat.swapWith
        by_cases hd : t.rows = t'.rows ∧ t.cols = t'.cols ∧ t.align = t'.align
        · have e1 : m.rows = m'.rows := by rw [h3.rows, k3.rows, hd.1]
          have e2 : m.cols = m'.cols := by rw [h3.cols, k3.cols, hd.2.1]
          have e3 : m.align = m'.align := by rw [h3.align, k3.align, hd.2.2]
          have e4 : m.stride = m'.stride := by rw [h3.stride, k3.stride, e2, e3]
          rw [if_pos hd, if_neg (by simp [e1, e2, e3, e4])]
          refine ⟨(h.set i ?_).set j ?_, rfl⟩
          · refine ⟨h3.rows, h3.cols, h3.align, h3.stride, by show m'.size = _; rw [k3.size, e1, e4], ?_⟩
            intro r c hr hc
            have hr : r < m.rows := hr
            have hc : c < m.cols := hc
            show m'.data (r * m.stride + c) = _
            rw [e4, k3.elem r c (by omega) (by omega)]
          · refine ⟨k3.rows, k3.cols, k3.align, k3.stride, by show m.size = _; rw [h3.size, e1, e4], ?_⟩
            intro r c hr hc
            have hr : r < m'.rows := hr
            have hc : c < m'.cols := hc
            show m.data (r * m'.stride + c) = _
            rw [← e4, h3.elem r c (by omega) (by omega)]
        · rw [if_neg hd]
          rw [if_pos]
          · exact ⟨h, rfl⟩
          · rw [h3.rows, h3.cols, h3.align, k3.rows, k3.cols, k3.align]
            tauto

/-- **C19.** For every program that creates, resizes, fills, reads, writes, copies and swaps matrices of any dimensions
and alignments, and respects the preconditions of the unchecked functions, the outcome of every operation is that of
the abstract tables: each operation changes exactly the elements it names, reads return the latest values, `at()`
throws exactly outside the dimensions, and nothing has undefined behaviour. -/
theorem matrix_is_table (ops : List (MatOp α)) (hops : Contracts (fun _ => none) ops) :
    (run matStep (fun _ => none) ops).2 = (run tableStep (fun _ => none) ops).2 := by
  have key : ∀ (ops : List (MatOp α)) (s : Nat → Option (Mat α)) (S : Nat → Option (Table α)), HoldsAll s S →
      Contracts S ops → (run matStep s ops).2 = (run tableStep S ops).2 := by
    intro ops
    induction ops with
    | nil => intros; rfl
    | cons op ops ih =>
      intro s S h hc
      obtain ⟨h1, h2⟩ := matStep_holds h op hc.1
      simp only [run]
      rw [h2, ih _ _ h1 hc.2]
  exact key ops _ _ (fun i => Or.inl ⟨rfl, rfl⟩) hops

/-- **C19.** Two elements of a reachable matrix never share a storage position. -/
theorem matrix_positions_distinct (rows cols align r c r' c' : Nat) (m : Mat α) (h : Mat.create rows cols align = .ok m)
    (hc : c < cols) (hc' : c' < cols) (he : r * m.stride + c = r' * m.stride + c') : r = r' ∧ c = c' := by
  unfold Mat.create at h
  simp only at h
  have hs : m.stride = nextAlignedSize cols align := by
    split_ifs at h <;> (injection h with h; rw [← h])
  have := le_nextAlignedSize cols align
  exact pos_inj (by omega) (by omega) he

/-- A concrete program: a 2x3 matrix with rows padded to four elements. -/
example : Contracts (fun _ => none) [.create 0 2 3 4, .write 0 1 2 (5 : Int), .setRow 0 0 [1, 2, 3], .read 0 0 3] ∧
    (run matStep (fun _ => none) [.create 0 2 3 4, .write 0 1 2 (5 : Int), .setRow 0 0 [1, 2, 3], .setColumn 0 1 [8, 9],
      .read 0 1 2, .read 0 0 1, .read 0 0 2, .read 0 0 3]).2
    = [.ok none, .ok none, .ok none, .ok none, .ok (some 5), .ok (some 8), .ok (some 3), .throw .outOfRange] := by
  have hl : LegalAlign 4 := Or.inr ⟨2, rfl⟩
  refine ⟨?_, by decide⟩
  simp [Contracts, Contract, tableStep, hl, setObj]

/-! ## Moves -/

/-- A matrix that has been moved from still reports its old dimensions but has no storage: `at()` accepts every index
inside them and has undefined behaviour. -/
theorem matrix_moved_from_ub (a b : Mat α) (hal : a.align = b.align) (row col : Nat) (hr : row < b.rows)
    (hc : col < b.cols) : (a.moveAssign b).2.2 = .ok () ∧ (a.moveAssign b).2.1.at row col = .ub := by
  have hnr : ¬ (row ≥ b.rows ∨ col ≥ b.cols) := by omega
  simp [Mat.moveAssign, hal, Mat.at, Mat.get, hnr]

/-- A rejected move assignment (different alignments) leaves the target with the dimensions of the source and its own
storage, so that `at()` can access memory outside it. -/
theorem matrix_rejected_move_corrupts (a b : Mat α) (hal : a.align ≠ b.align) (row col : Nat) (hr : row < b.rows)
    (hc : col < b.cols) (hout : a.size ≤ row * b.stride + col) :
    (a.moveAssign b).2.2 = .throw .logicError ∧ (a.moveAssign b).1.at row col = .ub := by
  have hnr : ¬ (row ≥ b.rows ∨ col ≥ b.cols) := by omega
  have : ¬ (row * b.stride + col < a.size) := by omega
  simp [Mat.moveAssign, hal, Mat.at, Mat.get, hnr, this]

example : ∃ a b : Mat Int, Mat.create 1 1 0 = .ok a ∧ Mat.create 8 8 4 = .ok b ∧ a.align ≠ b.align ∧
    a.size ≤ 7 * b.stride + 7 := by
  refine ⟨⟨1, 1, 1, 1, 1, fun _ => 0⟩, ⟨8, 8, 8, 4, 64, fun _ => 0⟩, rfl, rfl, by decide, by decide⟩

end Visr.Efl
