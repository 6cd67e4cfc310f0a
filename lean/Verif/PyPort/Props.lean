import Verif.PyPort.Model
import Verif.NdArray.Lemmas
import Mathlib.Tactic.IntervalCases

/-!
# C102: audio ports of components written in Python
-/

namespace Visr.PyPort

open Visr Visr.NdArray

variable {K : Type}

theorem channelStride_mul {size : Nat} (h : size ∣ 64) (n : Nat) : channelStride n size * size = Efl.nextAlignedSize (n * size) 64 := by
  unfold channelStride
  refine Nat.div_mul_cancel ?_
  unfold Efl.nextAlignedSize
  rw [if_neg (by omega)]
  dsimp only
  split_ifs
  · exact Dvd.intro_left _ rfl
  · exact Dvd.dvd.mul_left h _

theorem channelStride_whole {size n : Nat} (hs : 0 < size) (h : 64 ∣ n * size) : channelStride n size = n := by
  unfold channelStride Efl.nextAlignedSize
  rw [if_neg (by omega)]
  dsimp only
  rw [if_pos (Nat.mod_eq_zero_of_dvd h), Nat.mul_div_cancel _ hs]

theorem channelStride_padded {size n : Nat} (hs : size ∣ 64) (h : ¬64 ∣ n * size) : n < channelStride n size := by
  have h1 := channelStride_mul hs n
  have h2 : n * size < Efl.nextAlignedSize (n * size) 64 := by
    unfold Efl.nextAlignedSize
    rw [if_neg (by omega)]
    dsimp only
    rw [if_neg (fun h' => h (Nat.dvd_of_mod_eq_zero h'))]
    omega
  rw [← h1] at h2
  exact Nat.lt_of_mul_lt_mul_right h2

/-- Cells by channel and sample. -/
theorem flatMap_getElem? (n : Nat) (x : Nat → Nat → K) (w : Nat) {c i : Nat} (hc : c < w) (hi : i < n) :
    ((List.range w).flatMap fun c => (List.range n).map (x c))[c * n + i]? = some (x c i) := by
  induction w with
  | zero => omega
  | succ w ih =>
    have hl : ((List.range w).flatMap fun c => (List.range n).map (x c)).length = w * n := by
      rw [List.length_flatMap]
      simp
    rw [List.range_succ, List.flatMap_append]
    by_cases hcw : c < w
    · rw [List.getElem?_append_left]
      · exact ih hcw
      · rw [hl]
        have := Nat.mul_le_mul_right n (show c + 1 ≤ w by omega)
        rw [Nat.add_mul, Nat.one_mul] at this
        omega
    · obtain rfl : c = w := by omega
      rw [List.getElem?_append_right (by rw [hl]; omega), hl, Nat.add_sub_cancel_left]
      simp [hi]

theorem row_eq {p : Port K} {x : Nat → K} {c : Nat} (h : ∀ i < p.stride, p.cells[c * p.stride + i]? = some (x i)) :
    row p c = (List.range p.stride).map x := by
  apply List.ext_getElem?
  intro i
  unfold row
  rw [List.getElem?_take]
  by_cases hi : i < p.stride
  · rw [if_pos hi, List.getElem?_drop, h i hi]
    simp [hi]
  · rw [if_neg hi]
    simp [hi]

theorem copyRows_ok {mem : Memory K} {size base cs ss : BitVec 64} {n : Nat} {x : Nat → Nat → K} : ∀ (k ch : Nat) (cells : List K),
    (∀ c < k, ∀ i < n, mem (base + size * (BitVec.ofNat 64 (ch + c) * cs) + BitVec.ofNat 64 i * (size * ss)) = some (x (ch + c) i)) →
    (ch + k) * n ≤ cells.length →
    ∃ out, copyRows mem size base cs ss n k ch cells = .ok out ∧ out.length = cells.length ∧
      ∀ c i, i < n → out[c * n + i]? = if ch ≤ c ∧ c < ch + k then some (x c i) else cells[c * n + i]?
  | 0, ch, cells, _, _ => ⟨cells, rfl, rfl, fun c i _ => by rw [if_neg (by omega)]⟩
  | k + 1, ch, cells, hm, h => by
    have hle : ch * n + n ≤ cells.length := by
      have := Nat.mul_le_mul_right n (show ch + 1 ≤ ch + (k + 1) by omega)
      rw [Nat.add_mul ch 1, Nat.one_mul] at this
      omega
    have hread := readStrided_ok mem size ss (x ch) n 0 (base + size * (BitVec.ofNat 64 ch * cs)) (by
      intro i hi; simpa using hm 0 (by omega) i hi)
    obtain ⟨o1, e1, l1, v1⟩ := writeStrided_ok n n (x ch) n 0 (ch * n) cells hle
    obtain ⟨o2, e2, l2, v2⟩ := copyRows_ok (mem := mem) (size := size) (base := base) (cs := cs) (ss := ss) (x := x) k (ch + 1) o1
      (by
        intro c hc i hi
        have := hm (c + 1) (by omega) i hi
        rwa [show ch + (c + 1) = ch + 1 + c by omega] at this)
      (by rw [l1, show ch + 1 + k = ch + (k + 1) by omega]; exact h)
    refine ⟨o2, by rw [copyRows, BitVec.mul_comm cs, hread]; dsimp only; rw [e1]; exact e2, by rw [l2, l1], ?_⟩
    intro c i hi
    rw [v2 c i hi]
    by_cases h1 : ch + 1 ≤ c ∧ c < ch + 1 + k
    · rw [if_pos h1, if_pos (by omega)]
    · rw [if_neg h1, v1]
      by_cases h2 : c = ch
      · subst h2
        rw [if_pos (by omega), if_pos (by omega)]
        congr 2; omega
      · rw [if_neg, if_neg (by omega)]
        rintro ⟨g1, g2⟩
        rcases Nat.lt_or_gt_of_ne h2 with h3 | h3
        · have := Nat.mul_le_mul_right n (show c + 1 ≤ ch by omega)
          rw [Nat.add_mul, Nat.one_mul] at this
          omega
        · have := Nat.mul_le_mul_right n (show ch + 1 ≤ c by omega)
          rw [Nat.add_mul, Nat.one_mul] at this
          omega

theorem assigned_length (blockSize size width : Nat) (contents : Nat → Nat → K) :
    (assigned blockSize size width contents).cells.length = width * channelStride blockSize size := by
  unfold assigned
  rw [List.length_flatMap]
  simp

/-! ## The properties -/

/-- **C102.** A component reads the samples of the block: `data()` of a port is a matrix with a row for each channel and a column
for each sample of the block. (Partial: the size of a block in bytes is a multiple of 64.) -/
theorem block_read_partial {blockSize size : Nat} (width : Nat) (contents : Nat → Nat → K) (hs : 0 < size) (h : 64 ∣ blockSize * size) :
    data (assigned blockSize size width contents) = (List.range width).map fun c => (List.range blockSize).map (contents c) := by
  have hst := channelStride_whole hs h
  apply List.map_congr_left
  intro c hc
  have hc : c < width := by simpa [assigned] using hc
  have := row_eq (p := assigned blockSize size width contents) (x := contents c) (c := c)
    (fun i hi => flatMap_getElem? (channelStride blockSize size) contents width hc hi)
  rw [this]
  unfold assigned
  dsimp only
  rw [hst]

/-- **C102.** A component writes the samples of the block: after `set( matrix )` with a row for each channel and a column for each
sample of the block, the port contains the elements of the matrix, whatever its order in memory (transposed, reversed, every other
column), and `data()`, `channel()` and the index operator return them. (Partial: the size of a block in bytes is a multiple of 64,
and the strides of the matrix are multiples of the size of a sample.) -/
theorem block_written_partial {blockSize : Nat} {size : BitVec 64} (width : Nat) (contents : Nat → Nat → K) {mem : Memory K} {a : Nd}
    {x : Nat → Nat → K} (hs : PowerOfTwo size) (h : 64 ∣ blockSize * size.toNat) (hw : WholeStrides size a)
    (ha : Elements mem a width blockSize x) :
    ∃ p, set size mem (assigned blockSize size.toNat width contents) a = .ok p ∧
      data p = ((List.range width).map fun c => (List.range blockSize).map (x c)) ∧
      ∀ c < width, channel p c = .ok ((List.range blockSize).map (x c)) := by
  have hst : (assigned blockSize size.toNat width contents).stride = blockSize := channelStride_whole (size_pos hs) h
  have hwd : (assigned blockSize size.toNat width contents).width = width := rfl
  have hlen := assigned_length blockSize size.toNat width contents
  rw [show channelStride blockSize size.toNat = blockSize from hst] at hlen
  generalize assigned blockSize size.toNat width contents = p at hst hwd hlen ⊢
  obtain ⟨out, e1, e2, e3⟩ := copyRows_ok (mem := mem) (size := size) (base := a.base)
    (cs := elementStride size (a.strides.headD 0)) (ss := elementStride size (a.strides.getD 1 0)) (n := blockSize) (x := x) width 0
    p.cells (by
      intro c hc i hi
      rw [Nat.zero_add, sample_address hs a.base (whole hw).1 (whole hw).2]
      exact ha.2 c hc i hi) (by rw [hlen, Nat.zero_add])
  have hrow : ∀ c < width, row { p with cells := out } c = (List.range blockSize).map (x c) := by
    intro c hc
    have := row_eq (p := { p with cells := out }) (x := x c) (c := c) (by
      intro i hi
      have hi : i < blockSize := by rw [← hst]; exact hi
      show out[c * p.stride + i]? = _
      rw [hst, e3 c i hi, if_pos (by omega)])
    rw [this]
    show (List.range p.stride).map (x c) = _
    rw [hst]
  refine ⟨{ p with cells := out }, ?_, ?_, ?_⟩
  · unfold set
    rw [ha.1, if_neg (by simp [hst, hwd]), hst, hwd, e1]
  · unfold data
    dsimp only
    rw [hwd]
    apply List.map_congr_left
    intro c hc
    exact hrow c (by simpa using hc)
  · intro c hc
    unfold channel
    dsimp only
    rw [if_neg (by omega), hrow c hc]

/-- **C102.** Matrices of another shape than the one of `data()` are refused, and channels that do not exist as well; the port keeps
its contents. -/
theorem wrong_shape_refused (size : BitVec 64) (mem : Memory K) (p : Port K) (a : Nd) (h : a.shape ≠ [p.width, p.stride]) :
    set size mem p a = .throw .invalidArgument := by
  unfold set
  rw [if_pos]
  by_contra hc
  rw [not_or, not_or, not_not, not_not, not_not] at hc
  obtain ⟨h1, h2, h3⟩ := hc
  apply h
  match hsh : a.shape, h1 with
  | [u, v], _ =>
    rw [hsh] at h2 h3
    simp at h2 h3
    rw [h2, h3]

/-- **C102.** The index operator finds each channel, and raises `IndexError` for others. -/
theorem channels_found (p : Port K) (i : Nat) :
    (∀ h : i < p.width, channel p i = .ok ((data p)[i]'(by simpa [data] using h))) ∧ (p.width ≤ i → channel p i = .throw .outOfRange) := by
  constructor
  · intro h
    unfold channel
    rw [if_neg (by omega)]
    simp [data]
  · intro h
    unfold channel
    rw [if_pos h]

theorem iterate_list {α : Type} (get : Nat → Outcome α) (end' : Outcome Unit) : ∀ (l : List α) (i fuel : Nat), l.length < fuel →
    (∀ j (h : j < l.length), get (i + j) = .ok l[j]) →
    (iterate get 1 (i + l.length)) = ([], some end') → iterate get fuel i = (l, some end')
  | [], i, fuel + 1, _, _, he => by
    unfold iterate at he ⊢
    rw [List.length_nil, Nat.add_zero] at he
    cases hg : get i with
    | ok x => rw [hg] at he; simp at he
    | throw e => rw [hg] at he; exact he
    | ub => rw [hg] at he; exact he
  | x :: l, i, fuel + 1, hf, hg, he => by
    have h0 : get i = .ok x := hg 0 (by simp)
    have ih := iterate_list get end' l (i + 1) fuel (by simpa using hf)
      (fun j hj => by
        have := hg (j + 1) (by simpa using hj)
        rwa [show i + (j + 1) = i + 1 + j by omega] at this)
      (by rwa [List.length_cons, show i + (l.length + 1) = i + 1 + l.length by omega] at he)
    rw [iterate, h0]
    dsimp only
    rw [ih]

/-- **C102.** `for samples in port` visits the channels in order, and ends. -/
theorem iteration_visits_channels (p : Port K) {fuel : Nat} (h : p.width < fuel) :
    iterate (channel p) fuel 0 = (data p, some (.ok ())) := by
  have hl : (data p).length = p.width := by simp [data]
  refine iterate_list _ _ (data p) 0 fuel (by omega) (fun j hj => ?_) ?_
  · rw [Nat.zero_add]
    exact (channels_found p j).1 (by omega)
  · unfold iterate
    rw [(channels_found p _).2 (by omega)]
    rfl

/-- **C102.** The arrays that a component has obtained do not change with the following blocks. -/
theorem arrays_keep (w : World K) (ops : List (Op K)) (h : ∀ k j v, Op.assign k j v ∉ ops) : w.arrays <+: (ops.foldl step w).arrays := by
  induction ops generalizing w with
  | nil => exact List.prefix_rfl
  | cons op ops ih =>
    have h' : ∀ k j v, Op.assign k j v ∉ ops := fun k j v hm => h k j v (List.mem_cons_of_mem _ hm)
    refine List.IsPrefix.trans ?_ (ih (step w op) h')
    cases op with
    | data => exact List.prefix_append _ _
    | channel i =>
      unfold step
      dsimp only
      split
      · exact List.prefix_append _ _
      · exact List.prefix_rfl
    | assign k j v => exact absurd List.mem_cons_self (h k j v)
    | audio cells => exact List.prefix_rfl

/-- **C102 (negation, assignments).** Whatever a component assigns to elements of the arrays that `data()`, `channel()` and the index
operator of an output return, the output does not change, although they are declared to return references. -/
theorem assignments_lost (w : World K) (ops : List (Op K)) (h : ∀ cells, Op.audio cells ∉ ops) : (ops.foldl step w).port = w.port := by
  induction ops generalizing w with
  | nil => rfl
  | cons op ops ih =>
    rw [List.foldl_cons, ih _ (fun c hm => h c (List.mem_cons_of_mem _ hm))]
    cases op with
    | data => rfl
    | channel i => unfold step; dsimp only; split <;> rfl
    | assign k j v => unfold step; dsimp only; split <;> rfl
    | audio cells => exact absurd List.mem_cons_self (h cells)

/-- **C102 (negation, block length).** If the size of a block in bytes is not a multiple of 64, each row of `data()` is longer than
the block, and every matrix with one column for each sample of the block is refused. -/
theorem block_refused {blockSize : Nat} {size : BitVec 64} (width : Nat) (contents : Nat → Nat → K) (mem : Memory K) (hs : size.toNat ∣ 64)
    (h : ¬64 ∣ blockSize * size.toNat) :
    (∀ r ∈ data (assigned blockSize size.toNat width contents), blockSize < r.length) ∧
      ∀ a : Nd, a.shape = [width, blockSize] →
        set size mem (assigned blockSize size.toNat width contents) a = .throw .invalidArgument := by
  have hlt := channelStride_padded hs h
  constructor
  · intro r hr
    obtain ⟨c, hc, rfl⟩ := List.mem_map.1 hr
    have hc : c < width := by simpa [assigned] using hc
    rw [row_eq (p := assigned blockSize size.toNat width contents) (x := contents c)
      (fun i hi => flatMap_getElem? (channelStride blockSize size.toNat) contents width hc hi)]
    simpa [assigned] using hlt
  · intro a ha
    apply wrong_shape_refused
    rw [ha]
    intro heq
    have : blockSize = channelStride blockSize size.toNat := by simpa [assigned] using heq
    omega

/-- **C102 (negation, strides).** A column of packed records whose size is not a multiple of the size of a sample is written
wrongly: element 1 is at byte 6, but the bytes from 4 on are copied. -/
theorem packed_records_misread :
    let mem : Memory Nat := fun p => some p.toNat
    let a : Nd := ⟨true, 0, [1, 16], [96, 6]⟩
    Elements mem a 1 16 (fun _ j => 6 * j) ∧
      (match set 4 mem (assigned 16 4 1 fun _ _ => 0) a with
        | .ok p => data p
        | _ => []) = [(List.range 16).map fun j => 4 * j] := by
  refine ⟨⟨rfl, ?_⟩, by decide +kernel⟩
  intro i hi j hj
  obtain rfl : i = 0 := by omega
  interval_cases j <;> rfl

/-- **C102 (negation, other classes).** Iteration over a position reads beyond its three coordinates, and iteration over the
filters of a matrix of biquad coefficients reads beyond the last one. -/
theorem iteration_undefined (x y z : K) {α : Type} (filters : List α) {fuel : Nat} (h : filters.length < fuel) :
    iterate (positionItem x y z) 4 0 = ([x, y, z], some .ub) ∧ iterate (biquadItem filters) fuel 0 = (filters, some .ub) := by
  refine ⟨rfl, iterate_list _ _ filters 0 fuel h (fun j hj => ?_) ?_⟩
  · unfold biquadItem
    rw [Nat.zero_add, List.getElem?_eq_getElem hj]
  · unfold iterate biquadItem
    rw [Nat.zero_add, List.getElem?_eq_none (by omega)]

/-! ## Examples -/

/-- A matrix with the elements `100 c + i` in column order, every second column of the memory. -/
def columns : Nd := ⟨true, 8, [2, 16], [4, 16]⟩
def columnsMem : Memory Nat := fun p => some (100 * ((p.toNat - 8) / 4 % 4) + (p.toNat - 8) / 16)

example : ∃ p, set 4 columnsMem (assigned 16 4 2 fun _ _ => 0) columns = .ok p ∧
    data p = ((List.range 2).map fun c => (List.range 16).map fun i => 100 * c + i) ∧
    ∀ c < 2, channel p c = .ok ((List.range 16).map fun i => 100 * c + i) :=
  block_written_partial (size := 4) (x := fun c i => 100 * c + i) 2 _ ⟨2, by omega, rfl⟩ (by decide)
    (by intro s hs; simp [columns] at hs; rcases hs with rfl | rfl <;> decide)
    ⟨rfl, by intro i hi j hj; interval_cases i <;> interval_cases j <;> rfl⟩
example : data (assigned 16 4 2 fun c i => 100 * c + i) = (List.range 2).map fun c => (List.range 16).map fun i => 100 * c + i :=
  block_read_partial 2 _ (by omega) (by decide)
example : (data (assigned 100 4 1 fun _ i => i)).map List.length = [112] := by decide +kernel
example : ([Op.data, .assign 0 0 7, .channel 1, .assign 1 2 9].foldl step ⟨assigned 16 4 2 fun _ _ => 0, []⟩).port =
    assigned 16 4 2 fun _ _ => 0 := assignments_lost _ _ (by simp)
example : ([Op.data, .assign 0 0 7].foldl step ⟨assigned 16 4 1 fun _ _ => 0, []⟩).arrays = [7 :: List.replicate 15 0] := by
  decide +kernel
example : (iterate (channel (assigned 16 4 2 fun c _ => c)) 5 0).2 = some (.ok ()) := by
  rw [iteration_visits_channels _ (by decide)]

end Visr.PyPort
