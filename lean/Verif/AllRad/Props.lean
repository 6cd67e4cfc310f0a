import Verif.AllRad.Lemmas
import Verif.Vbap.Props

/-!
# C60: HOA sources are decoded through a virtual loudspeaker array; C61: matrix product
-/

namespace Visr.AllRad
open Visr Visr.Rotation

/-- C61. For any sizes and strides for which the elements of the result do not overlap, `efl::product` writes the matrix
product of its operands, and nothing else. -/
theorem product_correct (m1 m2 res : ℕ → ℝ) (s : Shape)
    (hd : ∀ r c r' c', r < s.rows → c < s.cols → r' < s.rows → c' < s.cols →
      r * s.rowR + c * s.colR = r' * s.rowR + c' * s.colR → r = r' ∧ c = c') :
    (∀ r c, r < s.rows → c < s.cols → product m1 m2 res s (r * s.rowR + c * s.colR) =
      ∑ k ∈ Finset.range s.inner, m1 (r * s.row1 + k * s.col1) * m2 (k * s.row2 + c * s.col2)) ∧
    ∀ a, (∀ r c, r < s.rows → c < s.cols → a ≠ r * s.rowR + c * s.colR) → product m1 m2 res s a = res a := by
  constructor
  · intro r c hr hc
    unfold product
    rw [rowLoop_hit m1 m2 s hd c hc s.rows 0 r res (by omega) (by omega) (by omega)]
    refine Finset.sum_congr rfl fun k _ => ?_
    rw [Nat.add_comm (c * s.col2)]
  · intro a ha
    exact rowLoop_miss _ _ _ _ _ _ _ fun r c _ h2 h3 => ha r c (by omega) h3

/-- Two by two matrices with a stride of four in a transposed layout meet the hypothesis of `product_correct`. -/
example (m1 m2 res : ℕ → ℝ) : product m1 m2 res ⟨2, 2, 2, 4, 1, 4, 1, 1, 4⟩ 5 = m1 4 * m2 1 + m1 5 * m2 5 := by
  have := (product_correct m1 m2 res ⟨2, 2, 2, 4, 1, 4, 1, 1, 4⟩ (by dsimp only; omega)).1 1 1 (by decide) (by decide)
  simpa [Finset.sum_range_succ] using this

/-! ### Construction -/

theorem panLoop_ok {eps : ℝ} {r : Rad} (n : ℕ) : ∀ (idx : ℕ) (m : Mtx), idx + n ≤ r.positions.length →
    (∀ pos ∈ r.positions, ∃ g, Vbap.gains eps r.vbap pos false = .ok g) → ∃ m', panLoop eps r n idx m = .ok m' := by
  induction n with
  | zero => intro idx m _ _; exact ⟨m, rfl⟩
  | succ n ih =>
    intro idx m h1 h2
    have e := List.getElem?_eq_getElem (l := r.positions) (i := idx) (by omega)
    obtain ⟨g, hg⟩ := h2 _ (List.getElem_mem (l := r.positions) (n := idx) (by omega))
    obtain ⟨m', hm⟩ := ih (idx + 1) (m.setRow idx g) (by omega) h2
    refine ⟨m', ?_⟩
    rw [panLoop, e]
    dsimp only
    rw [hg, Outcome.ok_bind, hm]

theorem update_ok {eps : ℝ} {r : Rad} (h1 : r.size ≤ r.positions.length)
    (h2 : ∀ pos ∈ r.positions, ∃ g, Vbap.gains eps r.vbap pos false = .ok g) : ∃ r', r.update eps = .ok r' := by
  obtain ⟨m', hm⟩ := panLoop_ok r.size 0 r.toReal (by omega) h2
  unfold Rad.update
  rw [hm, Outcome.ok_bind]
  exact ⟨_, rfl⟩

theorem setListener_ok {eps : ℝ} {reg real : LspArray} {rows cols : ℕ} {decode : ℕ → ℕ → ℝ} {r : Rad} {p q : Vec ℝ}
    (hm : Made eps reg real rows cols decode r) (ha : Adapted eps reg real rows cols decode p r)
    (hc : cols = reg.positions.length) (hq : Pans eps real q reg.positions) : ∃ r', r.setListener eps q = .ok r' := by
  obtain ⟨v, hv, hg⟩ := hq
  unfold Rad.setListener
  rw [setListener_create ha.1, hv, Outcome.ok_bind]
  refine update_ok (r := { r with vbap := v }) ?_ ?_
  · show r.size ≤ r.positions.length
    rw [hm.size, hm.positions, hc]
  · show ∀ pos ∈ r.positions, _
    rw [hm.positions]
    exact hg

theorem orderPlusOne_square (k : ℕ) : orderPlusOne ((k + 1) ^ 2) = k + 1 := by
  unfold orderPlusOne
  push_cast
  rw [Real.sqrt_sq (by positivity)]
  exact_mod_cast Nat.ceil_natCast (R := ℝ) (k + 1)

/-- C60, construction: for arrays in which the panner finds the regular loudspeakers, both from the centre and from the
initial listener position, a decoder is constructed exactly for the coefficients of a complete HOA order with one column
for every loudspeaker of the regular array, which must not contain virtual loudspeakers. -/
theorem constructs_iff (eps : ℝ) (align n : ℕ) (reg real : LspArray) (rows cols : ℕ) (decode : ℕ → ℕ → ℝ) (p : Vec ℝ)
    (adaptive : Bool) (h0 : Pans eps real ⟨0, 0, 0⟩ reg.positions) (hp : Pans eps real p reg.positions) :
    (∃ cfg s, create eps align n reg real rows cols decode p adaptive = .ok (cfg, s)) ↔
      (∃ order, rows = (order + 1) ^ 2) ∧ rows < 2 ^ 32 ∧ cols = reg.positions.length ∧ cols = reg.regular := by
  constructor
  · rintro ⟨cfg, s, h⟩
    have hlt := (create_spec h).2.2.2.2.2.1
    unfold create at h
    split_ifs at h with h1 h2 h3
    push Not at h1 h2 h3
    refine ⟨⟨orderPlusOne rows - 1, ?_⟩, hlt, h2, h3⟩
    have hne : orderPlusOne rows ≠ 0 := by
      intro h0
      rw [h0] at h1
      omega
    rw [Nat.sub_add_cancel (by omega), pow_two, h1.1]
  · rintro ⟨⟨order, ho⟩, hlt, hc1, hc2⟩
    have ho1 : orderPlusOne rows = order + 1 := by rw [ho, orderPlusOne_square]
    have hsmall : order < 2 ^ 32 := by nlinarith
    have ht : (UInt32.ofNat (orderPlusOne rows - 1)).toNat = order := by
      rw [ho1, Nat.add_sub_cancel, UInt32.toNat_ofNat_of_lt' hsmall]
    have hh : ((UInt32.ofNat (orderPlusOne rows - 1) + 1) * (UInt32.ofNat (orderPlusOne rows - 1) + 1)).toNat = rows := by
      rw [order_toNat (rows := rows) (by rw [ht, ho]) hlt, ht, ho]
    obtain ⟨v, hv, hg⟩ := h0
    have hmade : Made eps reg real rows cols decode ⟨reg.positions.take reg.regular, v, rows,
        ⟨rows, cols, Efl.nextAlignedSize cols align,
          fun k => decode (k / Efl.nextAlignedSize cols align) (k % Efl.nextAlignedSize cols align)⟩,
        Mtx.zero align rows real.regular, reg.positions.length, Mtx.zero align reg.positions.length real.regular⟩ := by
      refine ⟨List.take_of_length_le (by omega), rfl, hc1.symm, ?_, le_next _ _, le_next _ _, rfl⟩
      intro h j hh hj
      dsimp only
      have hs := le_next cols align
      have hpos : 0 < Efl.nextAlignedSize cols align := by omega
      rw [Nat.mul_comm, Nat.mul_add_div hpos, Nat.div_eq_of_lt (by omega), Nat.add_zero, Nat.mul_add_mod,
        Nat.mod_eq_of_lt (by omega)]
    obtain ⟨r, hr⟩ := update_ok (eps := eps) (r := ⟨reg.positions.take reg.regular, v, rows,
        ⟨rows, cols, Efl.nextAlignedSize cols align,
          fun k => decode (k / Efl.nextAlignedSize cols align) (k % Efl.nextAlignedSize cols align)⟩,
        Mtx.zero align rows real.regular, reg.positions.length, Mtx.zero align reg.positions.length real.regular⟩)
      (by dsimp only; rw [List.take_of_length_le (by omega)])
      (by dsimp only; rw [List.take_of_length_le (by omega)]; exact hg)
    obtain ⟨m1, a1⟩ := update_spec hmade hv hr
    obtain ⟨r2, hr2⟩ := setListener_ok m1 a1 hc1 hp
    unfold create
    rw [if_neg (by rw [ho1, ho, pow_two]; simp), if_neg (by simpa using hc1), if_neg (by simpa using hc2)]
    dsimp only
    unfold Rad.create
    rw [hv, Outcome.ok_bind]
    dsimp only
    rw [hh, if_neg (by simp), if_neg (by simpa using hc1), hr, Outcome.ok_bind, hr2, Outcome.ok_bind]
    exact ⟨_, _, rfl⟩

/-! ### Histories -/

section
variable {eps : ℝ} {align n : ℕ} {reg real : LspArray} {rows cols : ℕ} {decode : ℕ → ℕ → ℝ} {p0 : Vec ℝ}
  {adaptive : Bool} {cfg : Cfg} {s0 : State}

/-- The decoder used by `process()`. -/
theorem process_rad {ops : List Op} {s : State} (hinv : Inv eps reg real rows cols decode p0 cfg ops s) (he : cfg.eps = eps)
    {r : Rad} (hr : follow cfg s = .ok r) :
    Made eps reg real rows cols decode r ∧
      Adapted eps reg real rows cols decode (if cfg.adaptive then lastSet Op.listener? p0 ops else p0) r := by
  obtain ⟨q, hq, hl⟩ := hinv.adapted
  unfold follow at hr
  cases hs : s.listener with
  | none =>
    rw [hs] at hr hl
    simp only [Outcome.ok.injEq] at hr
    subst hr
    rw [← hl]
    exact ⟨hinv.made, hq⟩
  | some p =>
    rw [hs] at hr hl
    rw [← hl]
    rw [he] at hr
    exact setListener_spec hinv.made hq hr

theorem step_inv {ops : List Op} {s s' : State} (hinv : Inv eps reg real rows cols decode p0 cfg ops s)
    (he : cfg.eps = eps) (op : Op) (h : step cfg s op = .ok s') :
    Inv eps reg real rows cols decode p0 cfg (ops ++ [op]) s' := by
  obtain ⟨i1, i2, i3, q, i4, i5⟩ := hinv
  cases op with
  | scene o =>
    simp only [step, Outcome.ok.injEq] at h
    subst h
    exact ⟨by rw [lastSet_concat]; rfl, by rw [lastSet_concat]; exact i2, i3, q, i4, by rw [lastSet_concat]; exact i5⟩
  | gains m =>
    simp only [step, Outcome.ok.injEq] at h
    subst h
    exact ⟨by rw [lastSet_concat]; exact i1, by rw [lastSet_concat]; rfl, i3, q, i4, by rw [lastSet_concat]; exact i5⟩
  | listener p =>
    simp only [step, Outcome.ok.injEq] at h
    subst h
    cases ha : cfg.adaptive with
    | true =>
      refine ⟨by rw [lastSet_concat]; simpa [Op.scene?] using i1, by rw [lastSet_concat]; simpa [Op.gains?] using i2, by simpa using i3, q,
        by simpa using i4, ?_⟩
      rw [lastSet_concat, ha]
      simp [Op.listener?]
    | false =>
      refine ⟨by rw [lastSet_concat]; simpa [Op.scene?] using i1, by rw [lastSet_concat]; simpa [Op.gains?] using i2, by simpa using i3, q,
        by simpa using i4, ?_⟩
      rw [ha] at i5 ⊢
      simpa using i5
  | process =>
    simp only [step] at h
    have hinv : Inv eps reg real rows cols decode p0 cfg ops s := ⟨i1, i2, i3, q, i4, i5⟩
    cases hr : follow cfg s with
    | throw e => rw [hr] at h; cases h
    | ub => rw [hr] at h; cases h
    | ok r =>
      rw [hr, Outcome.ok_bind] at h
      obtain ⟨m, a⟩ := process_rad hinv he hr
      have key : ∀ out e, Inv eps reg real rows cols decode p0 cfg (ops ++ [.process])
          { s with rad := r, listener := none, output := out, errors := e } := by
        intro out e
        refine ⟨by rw [lastSet_concat]; exact i1, by rw [lastSet_concat]; exact i2, m, _, a, ?_⟩
        rw [lastSet_concat]
        rfl
      rcases hl : objectLoop cfg r s.scene s.input with ⟨out, _ | _ | _⟩
      · rw [hl] at h
        simp only [Outcome.ok.injEq] at h
        subst h
        exact key out s.errors
      · rw [hl] at h
        simp only [Outcome.ok.injEq] at h
        subst h
        exact key out _
      · rw [hl] at h; cases h

theorem runAll_inv (ops : List Op) : ∀ {s s' : State} {pre : List Op}, Inv eps reg real rows cols decode p0 cfg pre s →
    cfg.eps = eps → runAll cfg s ops = .ok s' → Inv eps reg real rows cols decode p0 cfg (pre ++ ops) s' := by
  induction ops with
  | nil =>
    intro s s' pre h _ hr
    simp only [runAll, Outcome.ok.injEq] at hr
    subst hr
    simpa using h
  | cons op ops ih =>
    intro s s' pre h he hr
    rw [runAll] at hr
    cases hs : step cfg s op with
    | throw e => rw [hs] at hr; cases hr
    | ub => rw [hs] at hr; cases hr
    | ok s1 =>
      rw [hs, Outcome.ok_bind] at hr
      have := ih (step_inv h he op hs) he hr
      rwa [List.append_assoc] at this

theorem create_inv (h : create eps align n reg real rows cols decode p0 adaptive = .ok (cfg, s0)) :
    Inv eps reg real rows cols decode p0 cfg [] s0 := by
  obtain ⟨h1, h2, h3, h4, h5, h6, h7, h8⟩ := create_spec h
  refine ⟨h2, h4, h7, p0, h8, ?_⟩
  rw [h3]
  simp [lastSet]

/-- C60, decoding. After any history of events and a call of `process()`, for the scene, the input gains and the listener
position that arrived last: if the scene suits the decoder and its HOA sources do not share channels, then no error is
reported, the gains of signal `k` of a HOA source are those with which the regular loudspeakers, fed by row `k` of the
decoder, are panned as point sources around that listener, and all other channels have their input gains. -/
theorem hoa_decoded_partial (h : create eps align n reg real rows cols decode p0 adaptive = .ok (cfg, s0))
    (ops : List Op) (s : State) (hs : runAll cfg s0 (ops ++ [.process]) = .ok s)
    (hsuits : Suits rows n (lastSet Op.scene? [] ops)) (hnd : (hoaChannels (lastSet Op.scene? [] ops)).Nodup) :
    (∃ s1, runAll cfg s0 ops = .ok s1 ∧ s.errors = s1.errors) ∧
    (∃ pan : ℕ → List ℝ,
      (∀ j, j < cols → ∃ pos, reg.positions[j]? = some pos ∧
        Panned eps real (if adaptive then lastSet Op.listener? p0 ops else p0) pos (pan j)) ∧
      ∀ order chs, Obj.hoa order chs ∈ lastSet Op.scene? [] ops → ∀ (k ch : ℕ), chs[k]? = some ch →
        ∀ spk, spk < real.regular →
          s.output spk ch = ∑ j ∈ Finset.range cols, decode k j * (pan j).getD spk 0) ∧
    ∀ spk ch, ch ∉ hoaChannels (lastSet Op.scene? [] ops) →
      s.output spk ch = lastSet Op.gains? (fun _ _ => 0) ops spk ch := by
  obtain ⟨h1, -, -, -, -, h6, -, -⟩ := create_spec h
  have hinv0 := create_inv h
  have he : cfg.eps = eps := by rw [h1]
  rw [runAll_append] at hs
  cases hr1 : runAll cfg s0 ops with
  | throw e => rw [hr1] at hs; cases hs
  | ub => rw [hr1] at hs; cases hs
  | ok s1 =>
    rw [hr1, Outcome.ok_bind] at hs
    have hinv := runAll_inv ops hinv0 he hr1
    rw [List.nil_append] at hinv
    simp only [runAll, step] at hs
    cases hr : follow cfg s1 with
    | throw e => rw [hr] at hs; cases hs
    | ub => rw [hr] at hs; cases hs
    | ok r =>
      rw [hr, Outcome.ok_bind] at hs
      obtain ⟨m, -, pan, a1, a2⟩ := process_rad hinv he hr
      have hch : cfg.channels = n := by rw [h1]
      have hlsp : cfg.loudspeakers = real.regular := by rw [h1]
      have had : cfg.adaptive = adaptive := by rw [h1]
      obtain ⟨out, e, u, w⟩ := objectLoop_spec (cfg := cfg) (r := r) (by rw [m.harmonics]; exact h6)
        (lastSet Op.scene? [] ops) s1.input (by rw [m.harmonics, hch]; exact hsuits) hnd
      rw [hinv.scene, e] at hs
      simp only [Outcome.ok_bind, Outcome.ok.injEq] at hs
      subst hs
      refine ⟨⟨s1, rfl, rfl⟩, ⟨pan, ?_, ?_⟩, ?_⟩
      · intro j hj
        rw [had] at a1
        exact a1 j hj
      · intro order chs hmem k ch hk spk hspk
        show out spk ch = _
        rw [w order chs hmem k ch hk spk (by omega)]
        obtain ⟨l1, l2, -⟩ := hsuits order chs hmem
        have := (List.getElem?_eq_some_iff.1 hk).1
        exact a2 k spk (by omega) hspk
      · intro spk ch hch'
        show out spk ch = _
        rw [u spk ch hch', hinv.input]

/-- C60, in terms of signals. The loudspeaker signals of a HOA source are those of the regular array fed by the HOA
decoder, with every regular loudspeaker played as a point source. -/
theorem plays_regular_array (h : create eps align n reg real rows cols decode p0 adaptive = .ok (cfg, s0))
    (ops : List Op) (s : State) (hs : runAll cfg s0 (ops ++ [.process]) = .ok s)
    (hsuits : Suits rows n (lastSet Op.scene? [] ops)) (hnd : (hoaChannels (lastSet Op.scene? [] ops)).Nodup) :
    ∃ pan : ℕ → List ℝ,
      (∀ j, j < cols → ∃ pos, reg.positions[j]? = some pos ∧
        Panned eps real (if adaptive then lastSet Op.listener? p0 ops else p0) pos (pan j)) ∧
      ∀ order chs, Obj.hoa order chs ∈ lastSet Op.scene? [] ops → ∀ (x : ℕ → ℝ) (spk : ℕ), spk < real.regular →
        ∑ k ∈ Finset.range chs.length, s.output spk (chs.getD k 0) * x k =
          ∑ j ∈ Finset.range cols, (pan j).getD spk 0 * ∑ k ∈ Finset.range chs.length, decode k j * x k := by
  obtain ⟨-, ⟨pan, a1, a2⟩, -⟩ := hoa_decoded_partial h ops s hs hsuits hnd
  refine ⟨pan, a1, ?_⟩
  intro order chs hmem x spk hspk
  simp only [Finset.mul_sum]
  rw [Finset.sum_comm]
  refine Finset.sum_congr rfl fun k hk => ?_
  rw [Finset.mem_range] at hk
  have e : chs[k]? = some (chs.getD k 0) := by simp [hk]
  rw [a2 order chs hmem k _ e spk hspk, Finset.sum_mul]
  refine Finset.sum_congr rfl fun j _ => ?_
  ring

theorem signalLoop_defined {cfg : Cfg} {r : Rad} (chs : List ℕ) : ∀ (sig : ℕ) (out : ℕ → ℕ → ℝ),
    sig + chs.length ≤ r.harmonics → (signalLoop cfg r sig chs out).2 ≠ .ub := by
  induction chs with
  | nil => intro sig out _; simp [signalLoop]
  | cons c chs ih =>
    intro sig out h
    simp only [List.length_cons] at h
    rw [signalLoop]
    split_ifs with h1 h2
    · simp
    · omega
    · exact ih _ _ (by omega)

theorem objectLoop_defined {cfg : Cfg} {r : Rad} (scene : List Obj)
    (h : ∀ order chs, Obj.hoa order chs ∈ scene → chs.length ≤ r.harmonics) : ∀ out : ℕ → ℕ → ℝ,
    (objectLoop cfg r scene out).2 ≠ .ub := by
  induction scene with
  | nil => intro out; simp [objectLoop]
  | cons o os ih =>
    intro out
    have ih' := ih fun order chs hm => h order chs (List.mem_cons_of_mem _ hm)
    cases o with
    | other => exact ih' out
    | hoa order chs =>
      rw [objectLoop]
      split_ifs with h1
      · simp
      · have hd := signalLoop_defined (cfg := cfg) (r := r) chs 0 out (by have := h order chs List.mem_cons_self; omega)
        rcases hs : signalLoop cfg r 0 chs out with ⟨o1, _ | _ | _⟩
        · exact ih' o1
        · simp
        · rw [hs] at hd; simp at hd

/-- C60, progress: as long as the panner finds the regular loudspeakers from all listener positions, and no HOA source has
more signals than the decoder, every history of events runs without exception and without undefined behaviour. -/
theorem runs (h : create eps align n reg real rows cols decode p0 adaptive = .ok (cfg, s0))
    (hp0 : Pans eps real p0 reg.positions) (ops : List Op)
    (hl : ∀ p, Op.listener p ∈ ops → Pans eps real p reg.positions)
    (hsc : ∀ scene, Op.scene scene ∈ ops → ∀ order chs, Obj.hoa order chs ∈ scene → chs.length ≤ rows) :
    ∃ s, runAll cfg s0 ops = .ok s := by
  obtain ⟨h1, h2, h3, -, -, -, hm0, ha0⟩ := create_spec h
  have he : cfg.eps = eps := by rw [h1]
  have hc : cols = reg.positions.length := by
    unfold create at h
    split_ifs at h with g1 g2 g3
    push Not at g2
    exact g2
  have key : ∀ (ops : List Op) (s : State), Made eps reg real rows cols decode s.rad →
      (∃ q, Adapted eps reg real rows cols decode q s.rad) →
      (∀ p, s.listener = some p → Pans eps real p reg.positions) →
      (∀ order chs, Obj.hoa order chs ∈ s.scene → chs.length ≤ rows) →
      (∀ p, Op.listener p ∈ ops → Pans eps real p reg.positions) →
      (∀ scene, Op.scene scene ∈ ops → ∀ order chs, Obj.hoa order chs ∈ scene → chs.length ≤ rows) →
      ∃ s', runAll cfg s ops = .ok s' := by
    intro ops
    induction ops with
    | nil => intro s _ _ _ _ _ _; exact ⟨s, rfl⟩
    | cons op ops ih =>
      intro s b1 b2 b3 b4 b5 b6
      have b5' : ∀ p, Op.listener p ∈ ops → Pans eps real p reg.positions :=
        fun p hp => b5 p (List.mem_cons_of_mem _ hp)
      have b6' : ∀ scene, Op.scene scene ∈ ops → ∀ order chs, Obj.hoa order chs ∈ scene → chs.length ≤ rows :=
        fun sc hp => b6 sc (List.mem_cons_of_mem _ hp)
      rw [runAll]
      cases op with
      | scene o =>
        simp only [step, Outcome.ok_bind]
        exact ih _ b1 b2 b3 (b6 o List.mem_cons_self) b5' b6'
      | gains m =>
        simp only [step, Outcome.ok_bind]
        exact ih _ b1 b2 b3 b4 b5' b6'
      | listener p =>
        simp only [step, Outcome.ok_bind]
        split_ifs
        · refine ih _ b1 b2 ?_ b4 b5' b6'
          intro q hq
          simp only [Option.some.injEq] at hq
          subst hq
          exact b5 _ List.mem_cons_self
        · exact ih _ b1 b2 b3 b4 b5' b6'
      | process =>
        obtain ⟨q, hq⟩ := b2
        have hr : ∃ r, follow cfg s = .ok r ∧
            Made eps reg real rows cols decode r ∧ ∃ q, Adapted eps reg real rows cols decode q r := by
          unfold follow
          cases hs : s.listener with
          | none => exact ⟨s.rad, rfl, b1, q, hq⟩
          | some p =>
            obtain ⟨r, hr⟩ := setListener_ok b1 hq hc (b3 p hs)
            obtain ⟨m, a⟩ := setListener_spec b1 hq hr
            rw [he]
            exact ⟨r, hr, m, p, a⟩
        obtain ⟨r, hr, hm, hq'⟩ := hr
        simp only [step]
        rw [hr]
        simp only [Outcome.ok_bind]
        have hd := objectLoop_defined (cfg := cfg) (r := r) s.scene
          (fun order chs hmem => by rw [hm.harmonics]; exact b4 order chs hmem) s.input
        rcases hl : objectLoop cfg r s.scene s.input with ⟨out, _ | _ | _⟩
        · simp only [Outcome.ok_bind]
          exact ih _ hm hq' (by intro p hp; cases hp) b4 b5' b6'
        · simp only [Outcome.ok_bind]
          exact ih _ hm hq' (by intro p hp; cases hp) b4 b5' b6'
        · rw [hl] at hd; simp at hd
  exact key ops s0 hm0 ⟨_, ha0⟩ (by intro p hp; rw [h3] at hp; cases hp) (by rw [h2]; simp) hl hsc

theorem signalLoop_bounds {cfg : Cfg} {r : Rad} (chs : List ℕ) : ∀ (sig : ℕ) (out : ℕ → ℕ → ℝ),
    (∀ spk c, cfg.channels ≤ c → (signalLoop cfg r sig chs out).1 spk c = out spk c) ∧
    ((signalLoop cfg r sig chs out).2 = .ok () → ∀ ch ∈ chs, ch < cfg.channels) := by
  induction chs with
  | nil => intro sig out; simp [signalLoop]
  | cons ch chs ih =>
    intro sig out
    rw [signalLoop]
    split_ifs with h1 h2
    · simp
    · simp
    · obtain ⟨i1, i2⟩ := ih (sig + 1) (fun spk c => if c = ch ∧ spk < cfg.loudspeakers then r.gain sig spk else out spk c)
      refine ⟨fun spk c hc => ?_, fun h c hc => ?_⟩
      · rw [i1 spk c hc, if_neg (by omega)]
      · rcases List.mem_cons.1 hc with rfl | hc
        · omega
        · exact i2 h c hc

theorem objectLoop_bounds {cfg : Cfg} {r : Rad} (scene : List Obj) : ∀ (out : ℕ → ℕ → ℝ),
    (∀ spk c, cfg.channels ≤ c → (objectLoop cfg r scene out).1 spk c = out spk c) ∧
    ((objectLoop cfg r scene out).2 = .ok () → ∀ order chs, Obj.hoa order chs ∈ scene →
      chs.length = ((order + 1) * (order + 1)).toNat ∧ ∀ ch ∈ chs, ch < cfg.channels) := by
  induction scene with
  | nil => intro out; simp [objectLoop]
  | cons o os ih =>
    intro out
    cases o with
    | other =>
      rw [objectLoop]
      refine ⟨(ih out).1, fun h order chs hm => (ih out).2 h order chs ?_⟩
      simpa using hm
    | hoa order chs =>
      rw [objectLoop]
      split_ifs with h1
      · simp
      · obtain ⟨b1, b2⟩ := signalLoop_bounds (cfg := cfg) (r := r) chs 0 out
        rcases hs : signalLoop cfg r 0 chs out with ⟨o1, _ | _ | _⟩
        · rw [hs] at b1 b2
          simp only at b1 b2 ⊢
          refine ⟨fun spk c hc => ((ih o1).1 spk c hc).trans (b1 spk c hc), fun h order' chs' hm => ?_⟩
          rcases List.mem_cons.1 hm with hm | hm
          · cases hm
            exact ⟨by simpa using h1, b2 (by trivial)⟩
          · exact (ih o1).2 h order' chs' hm
        · rw [hs] at b1
          simpa using b1
        · rw [hs] at b1
          simpa using b1

/-- C60, errors: a HOA source with the wrong number of signals or with a channel that the gain matrix does not have is
reported, and gains beyond the matrix are never written. -/
theorem unsuitable_scene_reported (h : create eps align n reg real rows cols decode p0 adaptive = .ok (cfg, s0))
    (ops : List Op) (s : State) (hs : runAll cfg s0 (ops ++ [.process]) = .ok s) :
    ∃ s1, runAll cfg s0 ops = .ok s1 ∧
      (∀ order chs, Obj.hoa order chs ∈ lastSet Op.scene? [] ops →
        chs.length ≠ ((order + 1) * (order + 1)).toNat ∨ (∃ ch ∈ chs, n ≤ ch) → s.errors = s1.errors + 1) ∧
      ∀ spk ch, n ≤ ch → s.output spk ch = lastSet Op.gains? (fun _ _ => 0) ops spk ch := by
  obtain ⟨h1, -, -, -, -, h6, -, -⟩ := create_spec h
  have hinv0 := create_inv h
  have he : cfg.eps = eps := by rw [h1]
  have hch : cfg.channels = n := by rw [h1]
  rw [runAll_append] at hs
  cases hr1 : runAll cfg s0 ops with
  | throw e => rw [hr1] at hs; cases hs
  | ub => rw [hr1] at hs; cases hs
  | ok s1 =>
    rw [hr1, Outcome.ok_bind] at hs
    have hinv := runAll_inv ops hinv0 he hr1
    rw [List.nil_append] at hinv
    simp only [runAll, step] at hs
    cases hr : follow cfg s1 with
    | throw e => rw [hr] at hs; cases hs
    | ub => rw [hr] at hs; cases hs
    | ok r =>
      rw [hr, Outcome.ok_bind] at hs
      obtain ⟨b1, b2⟩ := objectLoop_bounds (cfg := cfg) (r := r) s1.scene s1.input
      rw [hch] at b1 b2
      rcases hl : objectLoop cfg r s1.scene s1.input with ⟨out, _ | _ | _⟩
      · rw [hl] at hs b1 b2
        simp only [Outcome.ok_bind, Outcome.ok.injEq] at hs b1 b2
        subst hs
        refine ⟨s1, rfl, fun order chs hm hbad => ?_, fun spk ch hc => ?_⟩
        · obtain ⟨c1, c2⟩ := b2 trivial order chs (hinv.scene.symm ▸ hm)
          rcases hbad with hbad | ⟨ch, hc, hge⟩
          · exact absurd c1 hbad
          · exact absurd (c2 ch hc) (by omega)
        · rw [← hinv.input]; exact b1 spk ch hc
      · rw [hl] at hs b1 b2
        simp only [Outcome.ok_bind, Outcome.ok.injEq] at hs b1 b2
        subst hs
        refine ⟨s1, rfl, fun order chs hm hbad => rfl, fun spk ch hc => ?_⟩
        rw [← hinv.input]; exact b1 spk ch hc
      · rw [hl] at hs
        cases hs

/-- C60 is false of scenes with an inconsistent HOA source: all HOA sources after it are not decoded. Here it is the first
object: all channels keep their input gains, whatever follows in the scene. -/
theorem error_skips_later_sources (h : create eps align n reg real rows cols decode p0 adaptive = .ok (cfg, s0))
    (order : UInt32) (chs : List ℕ) (hbad : chs.length ≠ ((order + 1) * (order + 1)).toNat) (rest : List Obj)
    (m : ℕ → ℕ → ℝ) :
    ∃ s, runAll cfg s0 [.scene (.hoa order chs :: rest), .gains m, .process] = .ok s ∧ s.output = m ∧ s.errors = 1 := by
  obtain ⟨h1, h2, h3, h4, h5, -, hm0, ha0⟩ := create_spec h
  simp only [runAll, step, Outcome.ok_bind, follow, h3, objectLoop]
  rw [if_pos hbad]
  simp only [Outcome.ok_bind]
  exact ⟨_, rfl, rfl, by simp [h5]⟩

/-- C60 is false of HOA sources of a higher order than the decoder: `process()` reads beyond the decoding matrix. -/
theorem higher_order_undefined (h : create eps align n reg real rows cols decode p0 adaptive = .ok (cfg, s0))
    (hlsp : 0 < real.regular) (order : UInt32) (chs : List ℕ) (hlen : chs.length = ((order + 1) * (order + 1)).toNat)
    (hch : ∀ ch ∈ chs, ch < n) (hbig : rows < chs.length) (rest : List Obj) :
    runAll cfg s0 [.scene (.hoa order chs :: rest), .process] = .ub := by
  obtain ⟨h1, h2, h3, h4, h5, -, hm0, ha0⟩ := create_spec h
  have key : ∀ (chs : List ℕ) (sig : ℕ) (out : ℕ → ℕ → ℝ), (∀ ch ∈ chs, ch < n) → rows < sig + chs.length →
      sig ≤ rows → ∃ o, signalLoop cfg s0.rad sig chs out = (o, .ub) := by
    intro chs
    induction chs with
    | nil => intro sig out _ a b; simp at a; omega
    | cons c chs ih =>
      intro sig out a b d
      rw [signalLoop]
      have hc := a c List.mem_cons_self
      rw [if_neg (by rw [h1]; dsimp only; omega), hm0.harmonics]
      by_cases hs : sig ≥ rows
      · rw [if_pos ⟨by rw [h1]; exact hlsp, hs⟩]
        exact ⟨_, rfl⟩
      · rw [if_neg (by omega)]
        exact ih _ _ (fun ch hm => a ch (List.mem_cons_of_mem _ hm)) (by simp at b; omega) (by omega)
  obtain ⟨o, ho⟩ := key chs 0 s0.input hch (by omega) (by omega)
  simp only [runAll, step, Outcome.ok_bind, follow, h3, objectLoop]
  rw [if_neg (by simp [hlen]), ho]
  rfl

end

/-- A regular array with virtual loudspeakers is rejected by the calculator for all coefficient matrices… -/
theorem virtual_rejected (eps : ℝ) (align n : ℕ) (reg real : LspArray) (rows cols : ℕ) (decode : ℕ → ℕ → ℝ) (p : Vec ℝ)
    (adaptive : Bool) (hv : reg.regular ≠ reg.positions.length) :
    create eps align n reg real rows cols decode p adaptive = .throw .invalidArgument := by
  unfold create
  split_ifs with h1 h2 h3
  · rfl
  · rfl
  · rfl
  · push Not at h2 h3
    omega

/-- … and with `AllRAD` itself, which accepts a coefficient matrix for all its loudspeakers, the positions of the virtual
ones are read beyond the stored ones. -/
theorem virtual_undefined (eps : ℝ) (align : ℕ) (reg real : LspArray) (decode : Mtx) (order : UInt32)
    (hv : reg.regular < reg.positions.length) (hp : Pans eps real ⟨0, 0, 0⟩ reg.positions)
    (h1 : decode.rows = ((order + 1) * (order + 1)).toNat) (h2 : decode.cols = reg.positions.length) :
    Rad.create eps align reg real decode order = .ub := by
  obtain ⟨v, hc, hg⟩ := hp
  unfold Rad.create
  rw [hc, Outcome.ok_bind]
  dsimp only
  rw [if_neg (by simpa using h1), if_neg (by simpa using h2)]
  unfold Rad.update
  dsimp only
  have key : ∀ (r : Rad) (n idx : ℕ) (m : Mtx), r.positions.length < idx + n → idx ≤ r.positions.length →
      (∀ pos ∈ r.positions, ∃ g, Vbap.gains eps r.vbap pos false = .ok g) → panLoop eps r n idx m = .ub := by
    intro r n
    induction n with
    | zero => intro idx m a b; omega
    | succ n ih =>
      intro idx m a b c
      rw [panLoop]
      by_cases hi : idx < r.positions.length
      · rw [List.getElem?_eq_getElem hi]
        dsimp only
        obtain ⟨g, hg⟩ := c _ (List.getElem_mem hi)
        rw [hg, Outcome.ok_bind]
        exact ih _ _ (by omega) (by omega) c
      · rw [List.getElem?_eq_none (by omega)]
  rw [key _ _ _ _ (by simp; omega) (by simp)]
  · rfl
  · intro pos hpos
    exact hg pos (List.mem_of_mem_take hpos)

/-! ### A concrete case -/

/-- Loudspeakers on the axes. -/
def demoReal : LspArray := ⟨[⟨1, 0, 0⟩, ⟨0, 1, 0⟩, ⟨0, 0, 1⟩], 3, [(0, 1, 2)], false, fun _ _ => 0⟩

/-- A "regular" array of two loudspeakers. -/
def demoReg : LspArray := ⟨[⟨1, 2, 3⟩, ⟨3, 1, 1⟩], 2, [], false, fun _ _ => 0⟩

theorem demo_pans : Pans (1 / 1000) demoReal ⟨0, 0, 0⟩ demoReg.positions := by
  obtain ⟨v, hv⟩ := Vbap.create_ok (eps := 1 / 1000) demoReal.positions demoReal.regular demoReal.triplets demoReal.is2D
    demoReal.rerouting ⟨0, 0, 0⟩ (by simp [demoReal])
  refine ⟨v, hv, ?_⟩
  have hin : ∀ pos : Vec ℝ, 0 ≤ pos.x → 0 ≤ pos.y → 0 ≤ pos.z → ∃ g, Vbap.gains (1 / 1000) v pos false = .ok g := by
    intro pos hx hy hz
    obtain ⟨g, hg, -⟩ := Vbap.inside_exact hv rfl
      (by simp [demoReal, Vec.norm, Vec.normSquare, Vec.sub]; norm_num)
      (by simp [demoReal, Vbap.Proper, Vbap.triple, Vbap.direction, Vec.scale, Vec.sub, Vec.norm, Vec.normSquare])
      pos false pos (by simp [Vec.sub])
      ⟨(0, 1, 2), by simp [demoReal], pos.x, pos.y, pos.z, hx, hy, hz, by
        simp [demoReal, Vbap.Combination, Vbap.direction, Vec.scale, Vec.sub, Vec.norm, Vec.normSquare]⟩
    unfold Vbap.gains Vbap.gainsUnNormalised
    rw [hg]
    exact ⟨_, rfl⟩
  intro pos hpos
  simp only [demoReg, List.mem_cons, List.not_mem_nil, or_false] at hpos
  rcases hpos with rfl | rfl <;> exact hin _ (by norm_num) (by norm_num) (by norm_num)

/-- A first-order decoder for these arrays, a scene with a first-order source, and a change of the listener position. -/
theorem demo_runs : ∃ cfg s0 s, create (1 / 1000) 4 6 demoReg demoReal 4 2 (fun h j => h + 2 * j) ⟨0, 0, 0⟩ true = .ok (cfg, s0) ∧
    runAll cfg s0 ([.scene [.other, .hoa 1 [3, 0, 5, 1]], .gains fun _ _ => 1, .listener ⟨0, 0, 0⟩] ++ [.process]) = .ok s ∧
    Suits 4 6 [.other, .hoa 1 [3, 0, 5, 1]] ∧ (hoaChannels [.other, .hoa 1 [3, 0, 5, 1]]).Nodup := by
  obtain ⟨cfg, s0, h⟩ := (constructs_iff (1 / 1000) 4 6 demoReg demoReal 4 2 (fun h j => h + 2 * j) ⟨0, 0, 0⟩ true
    demo_pans demo_pans).2 ⟨⟨1, rfl⟩, by norm_num, rfl, rfl⟩
  obtain ⟨s, hs⟩ := runs h demo_pans
    ([.scene [.other, .hoa 1 [3, 0, 5, 1]], .gains fun _ _ => 1, .listener ⟨0, 0, 0⟩] ++ [.process])
    (by simp only [List.mem_append, List.mem_cons, List.not_mem_nil, or_false, reduceCtorEq, false_or, Op.listener.injEq]
        rintro p rfl
        exact demo_pans)
    (by simp)
  refine ⟨cfg, s0, s, h, hs, ?_, by decide⟩
  intro order chs hm
  simp only [List.mem_cons, List.not_mem_nil, or_false, reduceCtorEq, false_or, Obj.hoa.injEq] at hm
  obtain ⟨rfl, rfl⟩ := hm
  decide

/-- In this case channel 0 carries the second signal, channel 2 keeps its gains. -/
example : ∃ (cfg : Cfg) (s0 s : State) (pan : ℕ → List ℝ),
    create (1 / 1000) 4 6 demoReg demoReal 4 2 (fun h j => h + 2 * j) ⟨0, 0, 0⟩ true = .ok (cfg, s0) ∧
    runAll cfg s0 ([.scene [.other, .hoa 1 [3, 0, 5, 1]], .gains fun _ _ => 1, .listener ⟨0, 0, 0⟩] ++ [.process]) = .ok s ∧
    Panned (1 / 1000) demoReal ⟨0, 0, 0⟩ ⟨1, 2, 3⟩ (pan 0) ∧
    s.output 2 0 = 1 * (pan 0).getD 2 0 + 3 * (pan 1).getD 2 0 ∧ s.output 2 2 = 1 := by
  obtain ⟨cfg, s0, s, h, hs, h1, h2⟩ := demo_runs
  obtain ⟨-, ⟨pan, a, b⟩, c⟩ := hoa_decoded_partial h _ s hs h1 h2
  refine ⟨cfg, s0, s, pan, h, hs, ?_, ?_, ?_⟩
  · obtain ⟨pos, e, hp⟩ := a 0 (by norm_num)
    simp only [demoReg, List.getElem?_cons_zero, Option.some.injEq] at e
    subst e
    exact hp
  · rw [b 1 [3, 0, 5, 1] (List.mem_cons_of_mem (Obj.other) (List.mem_cons_self (l := []))) 1 0 rfl 2 (by simp [demoReal])]
    norm_num [Finset.sum_range_succ]
  · exact c 2 2 (show 2 ∉ [3, 0, 5, 1] by decide)

end Visr.AllRad
