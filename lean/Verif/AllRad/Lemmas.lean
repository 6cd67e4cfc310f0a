import Verif.AllRad.Spec
import Verif.Vbap.Lemmas
import Verif.Efl.PropsAligned
import Mathlib.Algebra.BigOperators.Group.Finset.Basic
import Mathlib.Tactic.Ring
import Mathlib.Tactic.Linarith

namespace Visr.AllRad
open Visr Visr.Rotation

theorem dotLoop_sum (m1 m2 : ℕ → ℝ) (s1 s2 : ℕ) (n : ℕ) : ∀ (p1 p2 : ℕ) (val : ℝ),
    dotLoop m1 m2 s1 s2 n p1 p2 val = val + ∑ k ∈ Finset.range n, m1 (p1 + k * s1) * m2 (p2 + k * s2) := by
  induction n with
  | zero => intro p1 p2 val; simp [dotLoop]
  | succ n ih =>
    intro p1 p2 val
    rw [dotLoop, ih, Finset.sum_range_succ', add_assoc]
    congr 1
    rw [add_comm]
    congr 1
    · refine Finset.sum_congr rfl fun k _ => ?_
      rw [show p1 + s1 + k * s1 = p1 + (k + 1) * s1 by ring, show p2 + s2 + k * s2 = p2 + (k + 1) * s2 by ring]
    · simp

/-- Different elements of the result have different addresses. -/
def Distinct (s : Shape) : Prop :=
  ∀ r c r' c', r < s.rows → c < s.cols → r' < s.rows → c' < s.cols →
    r * s.rowR + c * s.colR = r' * s.rowR + c' * s.colR → r = r' ∧ c = c'

theorem columnLoop_miss (m1 m2 : ℕ → ℝ) (s : Shape) (r a : ℕ) (n : ℕ) : ∀ (c0 : ℕ) (res : ℕ → ℝ),
    (∀ c, c0 ≤ c → c < c0 + n → a ≠ r * s.rowR + c * s.colR) → columnLoop m1 m2 s r n c0 res a = res a := by
  induction n with
  | zero => intros; rfl
  | succ n ih =>
    intro c0 res h
    rw [columnLoop, ih _ _ fun c h1 h2 => h c (by omega) (by omega),
      Function.update_of_ne (h c0 le_rfl (by omega))]

theorem columnLoop_hit (m1 m2 : ℕ → ℝ) (s : Shape) (hd : Distinct s) (r : ℕ) (hr : r < s.rows) (n : ℕ) :
    ∀ (c0 c : ℕ) (res : ℕ → ℝ), c0 ≤ c → c < c0 + n → c0 + n ≤ s.cols →
      columnLoop m1 m2 s r n c0 res (r * s.rowR + c * s.colR) =
        ∑ k ∈ Finset.range s.inner, m1 (r * s.row1 + k * s.col1) * m2 (c * s.col2 + k * s.row2) := by
  induction n with
  | zero => intros; omega
  | succ n ih =>
    intro c0 c res h1 h2 h3
    rw [columnLoop]
    by_cases hc : c = c0
    · subst hc
      rw [columnLoop_miss, Function.update_self, dotLoop_sum, zero_add]
      intro c' h4 h5 he
      have := (hd r c r c' hr (by omega) hr (by omega) he).2
      omega
    · exact ih _ _ _ (by omega) (by omega) (by omega)

theorem rowLoop_miss (m1 m2 : ℕ → ℝ) (s : Shape) (a : ℕ) (n : ℕ) : ∀ (r0 : ℕ) (res : ℕ → ℝ),
    (∀ r c, r0 ≤ r → r < r0 + n → c < s.cols → a ≠ r * s.rowR + c * s.colR) → rowLoop m1 m2 s n r0 res a = res a := by
  induction n with
  | zero => intros; rfl
  | succ n ih =>
    intro r0 res h
    rw [rowLoop, ih _ _ fun r c h1 h2 h3 => h r c (by omega) (by omega) h3,
      columnLoop_miss _ _ _ _ _ _ _ _ fun c _ h2 => h r0 c le_rfl (by omega) (by omega)]

theorem rowLoop_hit (m1 m2 : ℕ → ℝ) (s : Shape) (hd : Distinct s) (c : ℕ) (hc : c < s.cols) (n : ℕ) :
    ∀ (r0 r : ℕ) (res : ℕ → ℝ), r0 ≤ r → r < r0 + n → r0 + n ≤ s.rows →
      rowLoop m1 m2 s n r0 res (r * s.rowR + c * s.colR) =
        ∑ k ∈ Finset.range s.inner, m1 (r * s.row1 + k * s.col1) * m2 (c * s.col2 + k * s.row2) := by
  induction n with
  | zero => intros; omega
  | succ n ih =>
    intro r0 r res h1 h2 h3
    rw [rowLoop]
    by_cases hr : r = r0
    · subst hr
      rw [rowLoop_miss, columnLoop_hit _ _ _ hd _ (by omega) _ _ _ _ (by omega) (by omega) (by omega)]
      intro r' c' h4 h5 h6 he
      have := (hd r c r' c' (by omega) hc (by omega) h6 he).1
      omega
    · exact ih _ _ _ (by omega) (by omega) (by omega)

/-! ### VBAP -/

theorem setListener_create {eps : ℝ} {real : LspArray} {p q : Vec ℝ} {v : Vbap.Vbap}
    (h : Vbap.Vbap.create eps real.positions real.regular real.triplets real.is2D real.rerouting p = .ok v) :
    v.setListener eps q = Vbap.Vbap.create eps real.positions real.regular real.triplets real.is2D real.rerouting q := by
  unfold Vbap.Vbap.create at h
  obtain ⟨h1, h2, h3, h4, h5, -⟩ := Vbap.setListener_spec h
  simp only at h1 h2 h3 h4 h5
  unfold Vbap.Vbap.create Vbap.Vbap.setListener
  simp only [h1, h2, h3, h4, h5]
  have e : Vbap.invOf eps (⟨real.positions, real.regular, real.triplets, real.is2D, real.rerouting, q, v.inv⟩ : Vbap.Vbap) =
      Vbap.invOf eps (⟨real.positions, real.regular, real.triplets, real.is2D, real.rerouting, q, []⟩ : Vbap.Vbap) := by
    funext t
    rfl
  rw [e]

theorem gains_length {eps : ℝ} {v : Vbap.Vbap} {pos : Vec ℝ} {pw : Bool} {g : List ℝ}
    (h : Vbap.gains eps v pos pw = .ok g) : g.length = v.regular := by
  unfold Vbap.gains Vbap.gainsUnNormalised at h
  cases hp : Vbap.plain v pos pw with
  | ok g' => rw [hp] at h; simp only [Outcome.ok.injEq] at h; rw [← h]; simp [Vbap.powerNormalise]
  | throw e => rw [hp] at h; cases h
  | ub => rw [hp] at h; cases h

/-! ### `AllRAD` -/

theorem setRow_row {m : Mtx} {r : ℕ} {vals : List ℝ} {j c : ℕ} (hv : vals.length ≤ m.stride) (hc : c < m.stride) :
    (m.setRow r vals).data (j * m.stride + c) =
      if j = r ∧ c < vals.length then vals.getD c 0 else m.data (j * m.stride + c) := by
  unfold Mtx.setRow
  dsimp only
  by_cases hj : j = r
  · subst hj
    rw [if_pos (by omega), show j * m.stride + c - j * m.stride = c by omega]
    by_cases hl : c < vals.length
    · simp [hl]
    · simp [hl]
  · rw [if_neg (c := j = r ∧ c < vals.length) (by tauto)]
    by_cases hlt : j < r
    · have : (j + 1) * m.stride ≤ r * m.stride := Nat.mul_le_mul_right _ hlt
      rw [Nat.succ_mul] at this
      rw [if_neg (by omega)]
    · have : (r + 1) * m.stride ≤ j * m.stride := Nat.mul_le_mul_right _ (by omega)
      rw [Nat.succ_mul] at this
      rw [if_pos (by omega), List.getElem?_eq_none (by omega)]
      rfl

theorem panLoop_spec {eps : ℝ} {r : Rad} (n : ℕ) : ∀ (idx : ℕ) (m m' : Mtx),
    r.vbap.regular ≤ m.stride → panLoop eps r n idx m = .ok m' →
    m'.stride = m.stride ∧ m'.rows = m.rows ∧ m'.cols = m.cols ∧
      (∀ j c, j < idx → c < m.stride → m'.data (j * m.stride + c) = m.data (j * m.stride + c)) ∧
      ∀ j, idx ≤ j → j < idx + n → ∃ pos g, r.positions[j]? = some pos ∧ Vbap.gains eps r.vbap pos false = .ok g ∧
        ∀ c, c < r.vbap.regular → m'.data (j * m.stride + c) = g.getD c 0 := by
  induction n with
  | zero =>
    intro idx m m' _ h
    simp only [panLoop, Outcome.ok.injEq] at h
    subst h
    exact ⟨rfl, rfl, rfl, fun _ _ _ _ => rfl, fun j h1 h2 => by omega⟩
  | succ n ih =>
    intro idx m m' hs h
    rw [panLoop] at h
    cases hp : r.positions[idx]? with
    | none => rw [hp] at h; cases h
    | some pos =>
      rw [hp] at h
      dsimp only at h
      cases hg : Vbap.gains eps r.vbap pos false with
      | throw e => rw [hg] at h; cases h
      | ub => rw [hg] at h; cases h
      | ok g =>
        rw [hg, Outcome.ok_bind] at h
        have hl := gains_length hg
        obtain ⟨i1, i2, i3, i4, i5⟩ := ih (idx + 1) (m.setRow idx g) m' hs h
        have e1 : (m.setRow idx g).stride = m.stride := rfl
        rw [e1] at i1 i4 i5
        refine ⟨i1, i2, i3, ?_, ?_⟩
        · intro j c hj hc
          rw [i4 j c (by omega) hc, setRow_row (by omega) hc, if_neg (by omega)]
        · intro j h1 h2
          by_cases hj : j = idx
          · subst hj
            refine ⟨pos, g, hp, hg, fun c hc => ?_⟩
            rw [i4 j c (by omega) (by omega), setRow_row (by omega) (by omega), if_pos ⟨rfl, by omega⟩]
          · exact i5 j (by omega) (by omega)

/-- The decoder is that of the given arrays and coefficients. -/
structure Made (eps : ℝ) (reg real : LspArray) (rows cols : ℕ) (decode : ℕ → ℕ → ℝ) (r : Rad) : Prop where
  positions : r.positions = reg.positions
  harmonics : r.harmonics = rows
  size : r.size = cols
  coeffs : ∀ h j, h < rows → j < cols → r.regularDecode.data (h * r.regularDecode.stride + j) = decode h j
  stride : real.regular ≤ r.toReal.stride
  strideR : real.regular ≤ r.realDecode.stride
  cols : r.realDecode.cols = real.regular

/-- The decoding gains are those for a listener at `p`. -/
def Adapted (eps : ℝ) (reg real : LspArray) (rows cols : ℕ) (decode : ℕ → ℕ → ℝ) (p : Vec ℝ) (r : Rad) : Prop :=
  Vbap.Vbap.create eps real.positions real.regular real.triplets real.is2D real.rerouting p = .ok r.vbap ∧
  ∃ pan : ℕ → List ℝ, (∀ j, j < cols → ∃ pos, reg.positions[j]? = some pos ∧ Panned eps real p pos (pan j)) ∧
    ∀ h spk, h < rows → spk < real.regular →
      r.gain h spk = ∑ j ∈ Finset.range cols, decode h j * (pan j).getD spk 0

theorem update_spec {eps : ℝ} {reg real : LspArray} {rows cols : ℕ} {decode : ℕ → ℕ → ℝ} {r r' : Rad} {p : Vec ℝ}
    (hm : Made eps reg real rows cols decode r)
    (hv : Vbap.Vbap.create eps real.positions real.regular real.triplets real.is2D real.rerouting p = .ok r.vbap)
    (h : r.update eps = .ok r') : Made eps reg real rows cols decode r' ∧ Adapted eps reg real rows cols decode p r' := by
  unfold Rad.update at h
  have hreg : r.vbap.regular = real.regular := (Vbap.setListener_spec hv).2.1
  cases hl : panLoop eps r r.size 0 r.toReal with
  | throw e => rw [hl] at h; cases h
  | ub => rw [hl] at h; cases h
  | ok m =>
    rw [hl, Outcome.ok_bind] at h
    simp only [Outcome.ok.injEq] at h
    obtain ⟨h1, h2, h3, -, h5⟩ := panLoop_spec _ _ _ _ (by rw [hreg]; exact hm.stride) hl
    subst h
    refine ⟨⟨hm.positions, hm.harmonics, hm.size, hm.coeffs, by rw [h1]; exact hm.stride, hm.strideR, hm.cols⟩, hv, ?_⟩
    have hex : ∀ j, ∃ g : List ℝ, j < cols → ∃ pos, r.positions[j]? = some pos ∧
        Vbap.gains eps r.vbap pos false = .ok g ∧
        ∀ c, c < r.vbap.regular → m.data (j * r.toReal.stride + c) = g.getD c 0 := by
      intro j
      by_cases hj : j < cols
      · obtain ⟨pos, g, a, b, c⟩ := h5 j (by omega) (by rw [hm.size]; omega)
        exact ⟨g, fun _ => ⟨pos, a, b, c⟩⟩
      · exact ⟨[], fun h => absurd h hj⟩
    choose pan hpan using hex
    refine ⟨pan, ?_, ?_⟩
    · intro j hj
      obtain ⟨pos, a, b, -⟩ := hpan j hj
      exact ⟨pos, by rw [← hm.positions]; exact a, _, hv, b⟩
    · intro hh spk h6 h7
      unfold Rad.gain product
      dsimp only
      have hd : Distinct ⟨r.harmonics, r.realDecode.cols, r.size, r.regularDecode.stride, 1, m.stride, 1,
          r.realDecode.stride, 1⟩ := by
        intro a b a' b' _ hb _ hb' he
        dsimp only at *
        rw [hm.cols] at hb hb'
        have hs := hm.strideR
        have hpos : 0 < r.realDecode.stride := by omega
        have e1 : (a * r.realDecode.stride + b) / r.realDecode.stride = a := by
          rw [Nat.mul_comm, Nat.mul_add_div hpos, Nat.div_eq_of_lt (by omega), Nat.add_zero]
        have e2 : (a' * r.realDecode.stride + b') / r.realDecode.stride = a' := by
          rw [Nat.mul_comm, Nat.mul_add_div hpos, Nat.div_eq_of_lt (by omega), Nat.add_zero]
        simp only [Nat.mul_one] at he
        rw [he, e2] at e1
        subst e1
        exact ⟨rfl, by omega⟩
      have := rowLoop_hit r.regularDecode.data m.data _ hd spk (by dsimp only; rw [hm.cols]; exact h7) r.harmonics 0 hh
        r.realDecode.data (by omega) (by rw [hm.harmonics]; omega) (by simp)
      dsimp only at this
      rw [Nat.mul_one] at this
      rw [this, hm.size]
      refine Finset.sum_congr rfl fun k hk => ?_
      rw [Finset.mem_range] at hk
      obtain ⟨pos, -, -, c⟩ := hpan k hk
      rw [Nat.mul_one, hm.coeffs hh k h6 hk, h1, Nat.add_comm spk, c spk (by omega)]

theorem setListener_spec {eps : ℝ} {reg real : LspArray} {rows cols : ℕ} {decode : ℕ → ℕ → ℝ} {r r' : Rad} {p q : Vec ℝ}
    (hm : Made eps reg real rows cols decode r) (ha : Adapted eps reg real rows cols decode p r)
    (h : r.setListener eps q = .ok r') : Made eps reg real rows cols decode r' ∧ Adapted eps reg real rows cols decode q r' := by
  unfold Rad.setListener at h
  rw [setListener_create ha.1] at h
  cases hv : Vbap.Vbap.create eps real.positions real.regular real.triplets real.is2D real.rerouting q with
  | throw e => rw [hv] at h; cases h
  | ub => rw [hv] at h; cases h
  | ok v =>
    rw [hv, Outcome.ok_bind] at h
    exact update_spec (r := { r with vbap := v }) ⟨hm.1, hm.2, hm.3, hm.4, hm.5, hm.6, hm.7⟩ hv h

theorem le_next (n a : ℕ) : n ≤ Efl.nextAlignedSize n a := by
  rcases Nat.eq_zero_or_pos a with h | h
  · rw [(Efl.nextAlignedSize_spec n a).1 h]
  · exact ((Efl.nextAlignedSize_spec n a).2 h).1

theorem create_spec {eps : ℝ} {align n : ℕ} {reg real : LspArray} {rows cols : ℕ} {decode : ℕ → ℕ → ℝ} {p : Vec ℝ}
    {adaptive : Bool} {cfg : Cfg} {s : State}
    (h : create eps align n reg real rows cols decode p adaptive = .ok (cfg, s)) :
    cfg = ⟨eps, real.regular, n, adaptive⟩ ∧ s.scene = [] ∧ s.listener = none ∧ s.input = (fun _ _ => 0) ∧ s.errors = 0 ∧
      rows < 2 ^ 32 ∧ Made eps reg real rows cols decode s.rad ∧ Adapted eps reg real rows cols decode p s.rad := by
  unfold create at h
  split_ifs at h with h1 h2 h3
  dsimp only at h
  push Not at h1 h2 h3
  cases hc : Rad.create eps align reg real ⟨rows, cols, Efl.nextAlignedSize cols align,
      fun k => decode (k / Efl.nextAlignedSize cols align) (k % Efl.nextAlignedSize cols align)⟩
      (UInt32.ofNat (orderPlusOne rows - 1)) with
  | throw e => rw [hc] at h; cases h
  | ub => rw [hc] at h; cases h
  | ok r =>
    rw [hc, Outcome.ok_bind] at h
    cases hl : Rad.setListener eps r p with
    | throw e => rw [hl] at h; cases h
    | ub => rw [hl] at h; cases h
    | ok r2 =>
      rw [hl, Outcome.ok_bind] at h
      simp only [Outcome.ok.injEq, Prod.mk.injEq] at h
      obtain ⟨rfl, rfl⟩ := h
      refine ⟨rfl, rfl, rfl, rfl, rfl, ?_⟩
      unfold Rad.create at hc
      cases hv : Vbap.Vbap.create eps real.positions real.regular real.triplets real.is2D real.rerouting ⟨0, 0, 0⟩ with
      | throw e => rw [hv] at hc; cases hc
      | ub => rw [hv] at hc; cases hc
      | ok v =>
        rw [hv, Outcome.ok_bind] at hc
        dsimp only at hc
        split_ifs at hc with h4 h5
        push Not at h4 h5
        rw [← h4] at hc
        have hmade : Made eps reg real rows cols decode ⟨reg.positions.take reg.regular, v, rows,
            ⟨rows, cols, Efl.nextAlignedSize cols align,
              fun k => decode (k / Efl.nextAlignedSize cols align) (k % Efl.nextAlignedSize cols align)⟩,
            Mtx.zero align rows real.regular, reg.positions.length, Mtx.zero align reg.positions.length real.regular⟩ := by
          refine ⟨List.take_of_length_le (by omega), rfl, h2.symm, ?_, le_next _ _, le_next _ _, rfl⟩
          intro h j hh hj
          dsimp only
          have hs := le_next cols align
          have hpos : 0 < Efl.nextAlignedSize cols align := by omega
          rw [Nat.mul_comm, Nat.mul_add_div hpos, Nat.div_eq_of_lt (by omega), Nat.add_zero, Nat.mul_add_mod,
            Nat.mod_eq_of_lt (by omega)]
        obtain ⟨q1, q2⟩ := update_spec hmade hv hc
        refine ⟨?_, setListener_spec q1 q2 hl⟩
        rw [h4]
        exact UInt32.toNat_lt _

/-! ### `process()` -/

theorem signalLoop_spec {cfg : Cfg} {r : Rad} (chs : List ℕ) : ∀ (sig : ℕ) (out : ℕ → ℕ → ℝ),
    (∀ ch ∈ chs, ch < cfg.channels) → sig + chs.length ≤ r.harmonics → chs.Nodup →
    ∃ out', signalLoop cfg r sig chs out = (out', .ok ()) ∧
      (∀ spk ch, ch ∉ chs → out' spk ch = out spk ch) ∧
      ∀ (k ch : ℕ), chs[k]? = some ch → ∀ spk, spk < cfg.loudspeakers → out' spk ch = r.gain (sig + k) spk := by
  induction chs with
  | nil => intro sig out _ _ _; exact ⟨out, rfl, fun _ _ _ => rfl, fun k ch h => by simp at h⟩
  | cons c chs ih =>
    intro sig out h1 h2 h3
    simp only [List.length_cons] at h2
    rw [List.nodup_cons] at h3
    obtain ⟨out', e, u, w⟩ := ih (sig + 1)
      (fun spk c' => if c' = c ∧ spk < cfg.loudspeakers then r.gain sig spk else out spk c')
      (fun ch hch => h1 ch (List.mem_cons_of_mem _ hch)) (by omega) h3.2
    refine ⟨out', ?_, ?_, ?_⟩
    · have := h1 c List.mem_cons_self
      rw [signalLoop, if_neg (by omega), if_neg (by omega), e]
    · intro spk ch hch
      rw [List.mem_cons, not_or] at hch
      rw [u spk ch hch.2, if_neg (by tauto)]
    · intro k ch hk spk hspk
      cases k with
      | zero =>
        simp only [List.getElem?_cons_zero, Option.some.injEq] at hk
        subst hk
        rw [u spk c h3.1, if_pos ⟨rfl, hspk⟩, Nat.add_zero]
      | succ k =>
        rw [List.getElem?_cons_succ] at hk
        rw [w k ch hk spk hspk, show sig + 1 + k = sig + (k + 1) by omega]

theorem order_toNat {order : UInt32} {rows : ℕ} (h : (order.toNat + 1) ^ 2 ≤ rows) (hr : rows < 2 ^ 32) :
    ((order + 1) * (order + 1)).toNat = (order.toNat + 1) ^ 2 := by
  have h1 : order.toNat + 1 < 2 ^ 32 := by nlinarith [Nat.zero_le order.toNat]
  have e1 : (order + 1).toNat = order.toNat + 1 := by
    rw [UInt32.toNat_add]
    exact Nat.mod_eq_of_lt h1
  rw [UInt32.toNat_mul, e1, ← pow_two]
  exact Nat.mod_eq_of_lt (by omega)

theorem objectLoop_spec {cfg : Cfg} {r : Rad} (hr : r.harmonics < 2 ^ 32) (scene : List Obj) : ∀ (out : ℕ → ℕ → ℝ),
    Suits r.harmonics cfg.channels scene → (hoaChannels scene).Nodup →
    ∃ out', objectLoop cfg r scene out = (out', .ok ()) ∧
      (∀ spk ch, ch ∉ hoaChannels scene → out' spk ch = out spk ch) ∧
      ∀ order chs, Obj.hoa order chs ∈ scene → ∀ (k ch : ℕ), chs[k]? = some ch → ∀ spk, spk < cfg.loudspeakers →
        out' spk ch = r.gain k spk := by
  induction scene with
  | nil => intro out _ _; exact ⟨out, rfl, fun _ _ _ => rfl, fun _ _ h => by simp at h⟩
  | cons o os ih =>
    intro out h1 h2
    have h1' : Suits r.harmonics cfg.channels os := fun order chs h => h1 order chs (List.mem_cons_of_mem _ h)
    cases o with
    | other =>
      obtain ⟨out', e, u, w⟩ := ih out h1' h2
      refine ⟨out', by rw [objectLoop, e], u, ?_⟩
      intro order chs h
      exact w order chs (by simpa using h)
    | hoa order chs =>
      obtain ⟨s1, s2, s3⟩ := h1 order chs List.mem_cons_self
      rw [hoaChannels, List.nodup_append] at h2
      obtain ⟨n1, n2, n3⟩ := h2
      obtain ⟨o1, e1, u1, w1⟩ := signalLoop_spec (cfg := cfg) (r := r) chs 0 out s3 (by omega) n1
      obtain ⟨out', e, u, w⟩ := ih o1 h1' n2
      refine ⟨out', ?_, ?_, ?_⟩
      · rw [objectLoop, if_neg (by rw [order_toNat s2 hr, s1]; simp), e1]
        exact e
      · intro spk ch hch
        rw [hoaChannels, List.mem_append, not_or] at hch
        rw [u spk ch hch.2, u1 spk ch hch.1]
      · intro order' chs' h k ch hk spk hspk
        rw [List.mem_cons] at h
        rcases h with h | h
        · injection h with h3 h4
          subst h4
          rw [u spk ch (fun hin => n3 ch (List.mem_of_getElem? hk) ch hin rfl), w1 k ch hk spk hspk, Nat.zero_add]
        · exact w order' chs' h k ch hk spk hspk

theorem lastSet_concat {β : Type} (f : Op → Option β) (init : β) (ops : List Op) (op : Op) :
    lastSet f init (ops ++ [op]) = (f op).getD (lastSet f init ops) := by
  unfold lastSet
  rw [List.reverse_append]
  simp only [List.reverse_cons, List.reverse_nil, List.nil_append, List.singleton_append, List.findSome?_cons]
  cases f op <;> rfl

theorem runAll_append (cfg : Cfg) (s : State) (as bs : List Op) :
    runAll cfg s (as ++ bs) = (runAll cfg s as >>= fun s' => runAll cfg s' bs) := by
  induction as generalizing s with
  | nil => rfl
  | cons a as ih =>
    simp only [List.cons_append, runAll]
    cases step cfg s a with
    | ok s' => simp only [Outcome.ok_bind]; exact ih s'
    | throw e => rfl
    | ub => rfl

/-- Invariant of a history: the scene and the input gains are those set last; the decoder suits either the last listener
position, or an older one while the last one is pending. -/
structure Inv (eps : ℝ) (reg real : LspArray) (rows cols : ℕ) (decode : ℕ → ℕ → ℝ) (p0 : Vec ℝ) (cfg : Cfg)
    (ops : List Op) (s : State) : Prop where
  scene : s.scene = lastSet Op.scene? [] ops
  input : s.input = lastSet Op.gains? (fun _ _ => 0) ops
  made : Made eps reg real rows cols decode s.rad
  adapted : ∃ q, Adapted eps reg real rows cols decode q s.rad ∧
    s.listener.getD q = if cfg.adaptive then lastSet Op.listener? p0 ops else p0

end Visr.AllRad
