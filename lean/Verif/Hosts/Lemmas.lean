import Verif.Hosts.Spec
import Verif.Conversion.Props

namespace Visr.Hosts

theorem aligned0 (s a : BitVec 64) : Efl.checkAlignment s a 0 = true := by
  show Efl.checkAlignment s a 0#64 = true
  simp [Efl.checkAlignment]

theorem list_eq_map (d : List α) (P : Nat) (y : Nat → α) (hl : d.length = P) (h : ∀ k < P, d[k]? = some (y k)) :
    d = (List.range P).map y := by
  apply List.ext_getElem?
  intro k
  by_cases hk : k < P
  · rw [h k hk]; simp [hk]
  · rw [List.getElem?_eq_none (by omega), List.getElem?_eq_none (by simp; omega)]

theorem index_eq (b P N ch k : Nat) : b * P * N + ch + k * N = (b * P + k) * N + ch := by
  rw [Nat.add_mul (b * P) k N]; omega

theorem transferInput_spec [Zero α] (F : Flow σ α) (toSample : β → α) (data : List β) (b len : Nat) (x : Nat → Nat → β)
    (hx : Holds data F.captures len x) (hb : (b + 1) * F.period ≤ len) (chs : List Nat) (hc : ∀ ch ∈ chs, ch < F.captures) :
    transferInput F toSample data b chs =
      .ok (chs.map fun ch => (List.range F.period).map fun i => toSample (x ch (b * F.period + i))) := by
  induction chs with
  | nil => rfl
  | cons ch chs ih =>
    have hch := hc ch (by simp)
    obtain ⟨d, h1, h2, h3, _⟩ := Conversion.converted 8 4 (fun v => .ok (toSample v)) data
      ⟨0, b * F.period * F.captures + ch⟩ (List.replicate F.period (0 : α)) ⟨0, 0⟩ F.period F.captures 1 0 (by omega)
      (aligned0 _ _) (aligned0 _ _) (fun k => x ch (b * F.period + k)) (fun k => toSample (x ch (b * F.period + k)))
      (by
        intro k hk
        simp only []
        rw [index_eq]
        exact hx.2 ch hch _ (by rw [Nat.add_mul] at hb; omega))
      (fun _ _ => rfl) (by intro k hk; simp; omega)
    rw [transferInput, Conversion.convertInputStride, h1, Outcome.ok_bind]
    simp only []
    rw [ih fun c h => hc c (by simp [h]), Outcome.ok_bind, List.map_cons]
    congr 2
    refine list_eq_map d F.period _ (by rw [h2, List.length_replicate]) ?_
    intro k hk
    have := h3 k hk
    simpa using this

theorem column_ne (M t t' ch ch' : Nat) (h : ch < M) (h' : ch' < M) (hne : ch ≠ ch') : t * M + ch ≠ t' * M + ch' := by
  intro e
  have e1 : (t * M + ch) % M = ch := by rw [Nat.mul_comm, Nat.mul_add_mod]; exact Nat.mod_eq_of_lt h
  have e2 : (t' * M + ch') % M = ch' := by rw [Nat.mul_comm, Nat.mul_add_mod]; exact Nat.mod_eq_of_lt h'
  rw [e, e2] at e1
  exact hne e1.symm

theorem column_eq (M t t' ch ch' : Nat) (h : ch < M) (h' : ch' < M) (e : t * M + ch = t' * M + ch') : t = t' ∧ ch = ch' := by
  have hc : ch = ch' := by
    by_contra hne
    exact column_ne M t t' ch ch' h h' hne e
  subst hc
  exact ⟨Nat.eq_of_mul_eq_mul_right (show 0 < M by omega) (by omega), rfl⟩

theorem index_lt (M len t ch : Nat) (ht : t < len) (hc : ch < M) : t * M + ch < M * len := by
  calc t * M + ch < t * M + M := by omega
    _ = M * (t + 1) := by rw [Nat.mul_add, Nat.mul_comm]; omega
    _ ≤ M * len := Nat.mul_le_mul_left _ ht

theorem transferOutput_spec (F : Flow σ α) (fromSample : α → β) (y : Nat → Nat → α) (b len : Nat)
    (hb : (b + 1) * F.period ≤ len) (chs : List Nat) (hn : chs.Nodup) (hc : ∀ ch ∈ chs, ch < F.playbacks) (out : List β)
    (ho : out.length = F.playbacks * len) :
    ∃ out', transferOutput F fromSample y b chs out = .ok out' ∧ out'.length = out.length ∧
      (∀ ch ∈ chs, ∀ k < F.period, out'[(b * F.period + k) * F.playbacks + ch]? = some (fromSample (y ch k))) ∧
      ∀ ch < F.playbacks, ∀ t, (ch ∉ chs ∨ t < b * F.period) → out'[t * F.playbacks + ch]? = out[t * F.playbacks + ch]? := by
  induction chs generalizing out with
  | nil => exact ⟨out, rfl, rfl, by simp, fun _ _ _ _ => rfl⟩
  | cons ch chs ih =>
    have hch := hc ch (by simp)
    have hnd := List.nodup_cons.1 hn
    have hblock : ∀ k < F.period, b * F.period + k < len := by intro k hk; rw [Nat.add_mul] at hb; omega
    obtain ⟨d, h1, h2, h3, h4⟩ := Conversion.converted 4 8 (fun v => .ok (fromSample v)) (row F (y ch)) ⟨0, 0⟩ out
      ⟨0, b * F.period * F.playbacks + ch⟩ F.period 1 F.playbacks 0 (by omega) (aligned0 _ _) (aligned0 _ _)
      (fun k => y ch k) (fun k => fromSample (y ch k)) (by intro k hk; simp [row, hk]) (fun _ _ => rfl)
      (by intro k hk; simp only []; rw [index_eq, ho]; exact index_lt _ _ _ _ (hblock k hk) hch)
    obtain ⟨out', l1, l2, l3, l4⟩ := ih hnd.2 (fun c h => hc c (by simp [h])) d (by rw [h2, ho])
    refine ⟨out', ?_, by rw [l2, h2], ?_, ?_⟩
    · rw [transferOutput, Conversion.convertOutputStride, h1, Outcome.ok_bind]
      exact l1
    · intro c hcm k hk
      rcases List.mem_cons.1 hcm with rfl | hcm
      · rw [l4 c hch _ (.inl hnd.1), ← index_eq]
        exact h3 k hk
      · exact l3 c hcm k hk
    · intro c hcM t ht
      rw [l4 c hcM t (by rcases ht with ht | ht; exact .inl fun h => ht (by simp [h]); exact .inr ht)]
      refine h4 _ ?_
      intro k hk e
      simp only [] at e
      rw [index_eq] at e
      obtain ⟨e1, e2⟩ := column_eq _ _ _ _ _ hcM hch e
      rcases ht with ht | ht
      · exact ht (by simp [e2])
      · omega

theorem blocks_spec [Zero α] (F : Flow σ α) (toSample : β → α) (fromSample : α → β) (data : List β) (len : Nat)
    (x : Nat → Nat → β) (hx : Holds data F.captures len x) (hcap : F.captures ≠ 0) (hplay : F.playbacks ≠ 0)
    (hstatus : ∀ s x s' y r, F.proc s x = .ok (s', y, r) → r = false)
    (n b : Nat) (s s' : σ) (ys : List (Nat → Nat → α))
    (he : Executed F (fun ch t => toSample (x ch t)) n b s s' ys) (hb : (b + n) * F.period ≤ len)
    (out : List β) (ho : out.length = F.playbacks * len) :
    ∃ out', blocks F toSample fromSample data n b s out = .ok (s', out') ∧ out'.length = out.length ∧
      (∀ ch < F.playbacks, ∀ t < b * F.period, out'[t * F.playbacks + ch]? = out[t * F.playbacks + ch]?) ∧
      ∀ j y, ys[j]? = some y → ∀ ch < F.playbacks, ∀ k < F.period,
        out'[((b + j) * F.period + k) * F.playbacks + ch]? = some (fromSample (y ch k)) := by
  induction he generalizing out with
  | done b s => exact ⟨out, rfl, rfl, fun _ _ _ _ => rfl, by simp⟩
  | step n b s s1 s' y r ys hp _ ih =>
    have hb1 : (b + 1) * F.period ≤ len := le_trans (Nat.mul_le_mul_right _ (by omega)) hb
    have ht := transferInput_spec F toSample data b len x hx hb1 (List.range F.captures) (by simp)
    obtain ⟨o1, a1, a2, a3, a4⟩ := transferOutput_spec F fromSample y b len hb1 (List.range F.playbacks) List.nodup_range
      (by simp) out ho
    obtain ⟨o2, c1, c2, c3, c4⟩ := ih (by rw [show b + 1 + n = b + (n + 1) by omega]; exact hb) o1 (by rw [a2, ho])
    have hr := hstatus _ _ _ _ _ hp
    subst hr
    refine ⟨o2, ?_, by rw [c2, a2], ?_, ?_⟩
    · rw [blocks, ht, Outcome.ok_bind, if_neg (by simp [hcap, hplay])]
      have hp' : F.proc s ((List.range F.captures).map fun ch =>
          (List.range F.period).map fun i => toSample (x ch (b * F.period + i))) = .ok (s1, y, false) := hp
      rw [hp', Outcome.ok_bind]
      simp only [ne_eq, not_true_eq_false, if_false]
      rw [a1, Outcome.ok_bind, c1]
    · intro ch hch t ht
      rw [c3 ch hch t (by rw [Nat.add_mul]; omega), a4 ch hch t (.inr ht)]
    · intro j y' hj ch hch k hk
      cases j with
      | zero =>
        simp only [List.getElem?_cons_zero, Option.some.injEq] at hj
        subst hj
        rw [Nat.add_zero, c3 ch hch _ (by rw [Nat.add_mul]; omega)]
        exact a3 ch (by simpa using hch) k hk
      | succ j =>
        have := c4 j y' (by simpa using hj) ch hch k hk
        rwa [show b + 1 + j = b + (j + 1) by omega] at this

/-! ### Max/MSP -/

theorem maxTransferInput_spec [Zero α] (F : Flow σ α) (toSample : β → α) (ins : List (List β)) (x : Nat → Nat → β)
    (hx : ∀ ch < F.captures, ∃ src, ins[ch]? = some src ∧ ∀ i < F.period, src[i]? = some (x ch i))
    (chs : List Nat) (hc : ∀ ch ∈ chs, ch < F.captures) :
    maxTransferInput F toSample ins chs = .ok (chs.map fun ch => (List.range F.period).map fun i => toSample (x ch i)) := by
  induction chs with
  | nil => rfl
  | cons ch chs ih =>
    obtain ⟨src, hs, hsx⟩ := hx ch (hc ch (by simp))
    obtain ⟨d, h1, h2, h3, _⟩ := Conversion.converted 8 4 (fun v => .ok (toSample v)) src ⟨0, 0⟩ (List.replicate F.period (0 : α))
      ⟨0, 0⟩ F.period 1 1 0 (by omega) (aligned0 _ _) (aligned0 _ _) (fun k => x ch k) (fun k => toSample (x ch k))
      (by intro k hk; simpa using hsx k hk) (fun _ _ => rfl) (by intro k hk; simp; omega)
    rw [maxTransferInput, hs]
    simp only []
    rw [Conversion.convert, h1, Outcome.ok_bind]
    simp only [ne_eq, not_true_eq_false, if_false]
    rw [ih fun c h => hc c (by simp [h]), Outcome.ok_bind, List.map_cons]
    congr 2
    refine list_eq_map d F.period _ (by rw [h2, List.length_replicate]) ?_
    intro k hk
    simpa using h3 k hk

theorem maxTransferOutput_spec (F : Flow σ α) (fromSample : α → β) (y : Nat → Nat → α) (chs : List Nat) (hn : chs.Nodup)
    (outs : List (List β)) (ho : ∀ ch ∈ chs, ∃ dest, outs[ch]? = some dest ∧ F.period ≤ dest.length) :
    ∃ outs', maxTransferOutput F fromSample y chs outs = .ok outs' ∧ outs'.length = outs.length ∧
      (∀ ch ∈ chs, ∀ dest, outs[ch]? = some dest →
        outs'[ch]? = some ((List.range F.period).map (fun i => fromSample (y ch i)) ++ dest.drop F.period)) ∧
      ∀ ch, ch ∉ chs → outs'[ch]? = outs[ch]? := by
  induction chs generalizing outs with
  | nil => exact ⟨outs, rfl, rfl, by simp, fun _ _ => rfl⟩
  | cons ch chs ih =>
    have hnd := List.nodup_cons.1 hn
    obtain ⟨dest, hd, hl⟩ := ho ch (by simp)
    obtain ⟨d, h1, h2, h3, h4⟩ := Conversion.converted 4 8 (fun v => .ok (fromSample v)) (row F (y ch)) ⟨0, 0⟩ dest ⟨0, 0⟩
      F.period 1 1 0 (by omega) (aligned0 _ _) (aligned0 _ _) (fun k => y ch k) (fun k => fromSample (y ch k))
      (by intro k hk; simp [row, hk]) (fun _ _ => rfl) (by intro k hk; simp; omega)
    have hde : d = (List.range F.period).map (fun i => fromSample (y ch i)) ++ dest.drop F.period := by
      apply List.ext_getElem?
      intro k
      by_cases hk : k < F.period
      · have := h3 k hk
        simp only [Nat.mul_one, Nat.zero_add] at this
        rw [this, List.getElem?_append_left (by simpa using hk)]
        simp [hk]
      · rw [h4 k (by intro k' hk'; simp; omega), List.getElem?_append_right (by simp; omega), List.getElem?_drop]
        simp only [List.length_map, List.length_range]
        congr 1; omega
    obtain ⟨o, l1, l2, l3, l4⟩ := ih hnd.2 (outs.set ch d) (by
      intro c hcm
      have hne : ch ≠ c := by rintro rfl; exact hnd.1 hcm
      rw [List.getElem?_set_ne hne]
      exact ho c (by simp [hcm]))
    refine ⟨o, ?_, by rw [l2, List.length_set], ?_, ?_⟩
    · rw [maxTransferOutput, hd]
      simp only []
      rw [Conversion.convert, h1, Outcome.ok_bind]
      simp only [ne_eq, not_true_eq_false, if_false]
      exact l1
    · intro c hcm dest' hd'
      rcases List.mem_cons.1 hcm with rfl | hcm
      · rw [hd] at hd'
        injection hd' with hd'
        subst hd'
        rw [l4 c hnd.1, List.getElem?_set_self (List.getElem?_eq_some_iff.1 hd).1, hde]
      · have hne : ch ≠ c := by rintro rfl; exact hnd.1 hcm
        exact l3 c hcm dest' (by rw [List.getElem?_set_ne hne]; exact hd')
    · intro c hcm
      have hne : ch ≠ c := by rintro rfl; exact hcm (by simp)
      rw [l4 c (fun h => hcm (by simp [h])), List.getElem?_set_ne hne]

theorem convert_ok [Zero α] (a b : BitVec 64) (f : β → α) (src : List β) (n : Nat) (h : n ≤ src.length) :
    ∃ d, Conversion.convert a b (fun v => Outcome.ok (f v)) src ⟨0, 0⟩ (List.replicate n (0 : α)) ⟨0, 0⟩ n 0 = .ok (.noError, d) := by
  cases src with
  | nil =>
    have : n = 0 := by simpa using h
    subst this
    simp [Conversion.convert, Conversion.convertInputOutputStride, Conversion.loop, Efl.checkAlignment]
  | cons v l =>
    obtain ⟨d, h1, _⟩ := Conversion.converted a b (fun v => .ok (f v)) (v :: l) ⟨0, 0⟩ (List.replicate n (0 : α))
      ⟨0, 0⟩ n 1 1 0 (by omega) (aligned0 _ _) (aligned0 _ _) (fun k => ((v :: l)[k]?).getD v) (fun k => f (((v :: l)[k]?).getD v))
      (by
        intro k hk
        simp only [Nat.mul_one, Nat.zero_add]
        rw [List.getElem?_eq_getElem (by omega)]; rfl)
      (fun _ _ => rfl) (by intro k hk; simp; omega)
    exact ⟨d, h1⟩

theorem maxTransferInput_missing [Zero α] (F : Flow σ α) (toSample : β → α) (ins : List (List β)) (chs : List Nat)
    (h : ∃ ch ∈ chs, ∀ src, ins[ch]? = some src → src.length < F.period) : maxTransferInput F toSample ins chs = .ub := by
  induction chs with
  | nil => obtain ⟨ch, hc, _⟩ := h; simp at hc
  | cons c chs ih =>
    rw [maxTransferInput]
    split
    · rfl
    · rename_i src hs
      by_cases hl : F.period ≤ src.length
      · have ih' := ih (by
          obtain ⟨ch, hc, h⟩ := h
          rcases List.mem_cons.1 hc with rfl | hc
          · have := h src hs; omega
          · exact ⟨ch, hc, h⟩)
        obtain ⟨d, h1⟩ := convert_ok 8 4 toSample src F.period hl
        rw [h1, Outcome.ok_bind]
        simp only [ne_eq, not_true_eq_false, if_false]
        rw [ih']; rfl
      · have : Conversion.convert 8 4 (fun v => Outcome.ok (toSample v)) src ⟨0, 0⟩ (List.replicate F.period 0) ⟨0, 0⟩ F.period 0 = .ub :=
          Conversion.outside_undefined 8 4 toSample src ⟨0, 0⟩ _ ⟨0, 0⟩ F.period 1 1 ⟨src.length, by omega, .inl (by simp)⟩
        rw [this]; rfl

end Visr.Hosts
