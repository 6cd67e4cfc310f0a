import Verif.Protocol.Model
import Mathlib.Tactic.Common

/-!
# Properties of the double buffering and shared data protocols (C04, C05)
-/

namespace Visr.Protocol
open Visr

/-! ## Helper facts -/

/-- The `getProtocol()` pointers of the ports agree with the attached ports; no receiver is listed twice. -/
def DB.Inv (s : DB α) : Prop :=
  (∀ p, s.inPtr p = true ↔ p ∈ s.inputs) ∧ (∀ p, s.outPtr p = true ↔ s.output = some p) ∧ s.inputs.Nodup

private theorem db_inv_step (inT outT : PortId → Bool) (s : DB α) (op : DBOp α) (h : s.Inv) :
    (s.step inT outT op).1.Inv := by
  obtain ⟨h1, h2, h3⟩ := h
  cases op with
  | modify p f => simp only [DB.step]; split <;> exact ⟨h1, h2, h3⟩
  | readOut p => simp only [DB.step]; split <;> exact ⟨h1, h2, h3⟩
  | swap p c => simp only [DB.step, DB.swapBuffers]; split <;> exact ⟨h1, h2, h3⟩
  | read p => simp only [DB.step]; split <;> exact ⟨h1, h2, h3⟩
  | changed p => exact ⟨h1, h2, h3⟩
  | resetChanged p => exact ⟨h1, h2, h3⟩
  | connectInput p =>
    simp only [DB.step, DB.connectInput]
    split
    · exact ⟨h1, h2, h3⟩
    · refine ⟨fun q => ?_, h2, ?_⟩
      · have := h1 q
        simp only [upd, List.contains_iff_mem]
        by_cases hq : q = p
        · subst hq; simp only [if_true, true_iff]; split <;> simp_all
        · simp only [hq, if_false, this]; split <;> simp [hq]
      · simp only [List.contains_iff_mem]
        split
        · exact h3
        · rename_i hm
          simp [List.nodup_append, h3]
          exact fun a ha => by rintro rfl; exact hm ha
  | connectOutput p =>
    simp only [DB.step, DB.connectOutput]
    split
    · exact ⟨h1, h2, h3⟩
    · split
      · exact ⟨h1, h2, h3⟩
      · rename_i hn
        simp only [Option.not_isSome_iff_eq_none] at hn
        refine ⟨h1, fun q => ?_, h3⟩
        have := h2 q
        simp only [upd, Option.some.injEq]
        by_cases hq : q = p
        · simp [hq]
        · simp only [hq, if_false, this, hn]; simp [Ne.symm hq]
  | disconnectInput p =>
    simp only [DB.step, DB.disconnectInput]
    split
    · exact ⟨h1, h2, h3⟩
    · split
      · exact ⟨h1, h2, h3⟩
      · refine ⟨fun q => ?_, h2, h3.erase p⟩
        have := h1 q
        simp only [upd]
        rw [h3.mem_erase_iff]
        by_cases hq : q = p
        · simp [hq]
        · simp [hq, this]
  | disconnectOutput p =>
    simp only [DB.step, DB.disconnectOutput]
    split
    · exact ⟨h1, h2, h3⟩
    · split
      · exact ⟨h1, h2, h3⟩
      · rename_i hn
        simp only [ne_eq, Decidable.not_not] at hn
        refine ⟨h1, fun q => ?_, h3⟩
        have := h2 q
        simp only [upd]
        by_cases hq : q = p
        · simp [hq]
        · simp only [hq, if_false, this, ← hn]; simp [Ne.symm hq]

private theorem db_reach (inT outT : PortId → Bool) (d : α) (h : List (DBOp α)) :
    (final (DB.step inT outT) (DB.init d) h).Inv :=
  final_induction (P := DB.Inv) (db_inv_step inT outT) (by simp [DB.Inv, DB.init]) h

def DBOp.isSwap : DBOp α → Bool
  | .swap _ _ => true
  | _ => false

def DBOp.isReset (q : PortId) : DBOp α → Bool
  | .resetChanged p => p = q
  | _ => false

private theorem db_back_noswap (inT outT : PortId → Bool) (s : DB α) (h : List (DBOp α))
    (hns : ∀ op ∈ h, op.isSwap = false) : (final (DB.step inT outT) s h).back = s.back := by
  induction h generalizing s with
  | nil => rfl
  | cons op h ih =>
    rw [final_cons, ih _ (fun o ho => hns o (by simp [ho]))]
    have := hns op (by simp)
    cases op <;> simp only [DBOp.isSwap] at this <;>
      simp only [DB.step, DB.connectInput, DB.connectOutput, DB.disconnectInput, DB.disconnectOutput] <;>
      repeat (first | rfl | split | contradiction)

private theorem db_changed_mono (inT outT : PortId → Bool) (s : DB α) (q : PortId) (h : List (DBOp α))
    (hq : s.changed q = true) (hnr : ∀ op ∈ h, op.isReset q = false) :
    (final (DB.step inT outT) s h).changed q = true := by
  induction h generalizing s with
  | nil => exact hq
  | cons op h ih =>
    rw [final_cons]
    apply ih _ _ (fun o ho => hnr o (by simp [ho]))
    have := hnr op (by simp)
    cases op <;>
      simp only [DB.step, DB.connectInput, DB.connectOutput, DB.disconnectInput, DB.disconnectOutput,
        DB.swapBuffers] <;>
      repeat (first | assumption | split)
    · simp [hq]
    · simp [hq]
    · exact hq
    · simp only [DBOp.isReset, decide_eq_false_iff_not] at this
      simp [upd, Ne.symm this, hq]

private theorem db_changed_noswap (inT outT : PortId → Bool) (s : DB α) (q : PortId) (h : List (DBOp α))
    (hq : s.changed q = false) (hns : ∀ op ∈ h, op.isSwap = false) :
    (final (DB.step inT outT) s h).changed q = false := by
  induction h generalizing s with
  | nil => exact hq
  | cons op h ih =>
    rw [final_cons]
    apply ih _ _ (fun o ho => hns o (by simp [ho]))
    have := hns op (by simp)
    cases op <;> simp only [DBOp.isSwap] at this <;>
      simp only [DB.step, DB.connectInput, DB.connectOutput, DB.disconnectInput, DB.disconnectOutput] <;>
      repeat (first | assumption | split | contradiction)
    · simp only [upd]; split
      · rfl
      · exact hq

/-! ## C04 -/

/-- C04: let a history `h1` lead to the moment at which the attached sender `p`, seeing the value `v` in its own buffer,
calls `swapBuffers`. Whatever happens afterwards without a further swap - writes by the sender, flag resets, receivers
coming and going - every attached receiver reads exactly `v`. -/
theorem doubleBuffering_visible_value (inT outT : PortId → Bool) (d v : α) (h1 h2 : List (DBOp α)) (p q : PortId)
    (copy : Bool)
    (hv : ((final (DB.step inT outT) (DB.init d) h1).step inT outT (.readOut p)).2 = .ok (.val v))
    (hns : ∀ op ∈ h2, op.isSwap = false)
    (hq : (final (DB.step inT outT) (DB.init d) (h1 ++ .swap p copy :: h2)).inPtr q = true) :
    ((final (DB.step inT outT) (DB.init d) (h1 ++ .swap p copy :: h2)).step inT outT (.read q)).2 = .ok (.val v) := by
  simp only [DB.step] at hv ⊢
  rw [if_pos hq]
  rw [final_append, final_cons, db_back_noswap inT outT _ h2 hns]
  generalize final (DB.step inT outT) (DB.init d) h1 = s at *
  split at hv
  · rename_i hp
    simp only [Outcome.ok.injEq, Res.val.injEq] at hv
    simp [DB.step, hp, DB.swapBuffers, hv]
  · simp at hv

/-- C04: before the first swap every receiver reads the initial value, whatever the sender writes. -/
theorem doubleBuffering_before_first_swap (inT outT : PortId → Bool) (d : α) (h : List (DBOp α)) (q : PortId)
    (hns : ∀ op ∈ h, op.isSwap = false)
    (hq : (final (DB.step inT outT) (DB.init d) h).inPtr q = true) :
    ((final (DB.step inT outT) (DB.init d) h).step inT outT (.read q)).2 = .ok (.val d) ∧
    ((final (DB.step inT outT) (DB.init d) h).step inT outT (.changed q)).2 = .ok (.bool false) := by
  refine ⟨?_, ?_⟩
  · simp only [DB.step]
    rw [if_pos hq, db_back_noswap inT outT _ h hns]; rfl
  · simp only [DB.step]
    rw [db_changed_noswap inT outT _ q h rfl hns]

/-- C04: a swap raises the flag of every receiver attached at that moment, and it stays raised until this receiver resets
it itself, whatever the sender and all other receivers do. -/
theorem doubleBuffering_flag_raised (inT outT : PortId → Bool) (d : α) (h1 h2 : List (DBOp α)) (p q : PortId)
    (copy : Bool)
    (hp : (final (DB.step inT outT) (DB.init d) h1).outPtr p = true)
    (hq : (final (DB.step inT outT) (DB.init d) h1).inPtr q = true)
    (hnr : ∀ op ∈ h2, op.isReset q = false) :
    ((final (DB.step inT outT) (DB.init d) (h1 ++ .swap p copy :: h2)).step inT outT (.changed q)).2
      = .ok (.bool true) := by
  have hm := (db_reach inT outT d h1).1 q
  simp only [DB.step]
  rw [final_append, final_cons]
  generalize final (DB.step inT outT) (DB.init d) h1 = s at *
  rw [db_changed_mono inT outT _ q h2 ?_ hnr]
  simp [DB.step, hp, DB.swapBuffers, hm.1 hq]

/-- C04: after a receiver has reset its flag, it stays down until the next swap; swaps never touch the flags of receivers
that are not attached. -/
theorem doubleBuffering_flag_reset (inT outT : PortId → Bool) (d : α) (h1 h2 : List (DBOp α)) (q : PortId)
    (hns : ∀ op ∈ h2, op.isSwap = false) :
    ((final (DB.step inT outT) (DB.init d) (h1 ++ .resetChanged q :: h2)).step inT outT (.changed q)).2
      = .ok (.bool false) := by
  simp only [DB.step]
  rw [final_append, final_cons]
  generalize final (DB.step inT outT) (DB.init d) h1 = s at *
  rw [db_changed_noswap inT outT _ q h2 ?_ hns]
  simp [DB.step, upd]

theorem doubleBuffering_flag_detached (inT outT : PortId → Bool) (d : α) (h1 : List (DBOp α)) (p q : PortId)
    (copy : Bool) (hq : (final (DB.step inT outT) (DB.init d) h1).inPtr q = false) :
    let s := final (DB.step inT outT) (DB.init d) h1
    ((s.step inT outT (.swap p copy)).1.step inT outT (.changed q)).2 = (s.step inT outT (.changed q)).2 := by
  intro s
  have hm := (db_reach inT outT d h1).1 q
  have hn : q ∉ s.inputs := fun hc => by have := hm.2 hc; rw [hq] at this; simp at this
  simp only [DB.step]
  split
  · simp [DB.swapBuffers, hn]
  · rfl

/-- C04: a swap with `copyValue` leaves the value in the sender's buffer untouched. -/
theorem doubleBuffering_swap_copy (inT outT : PortId → Bool) (s : DB α) (p : PortId) (hp : s.outPtr p = true) :
    ((s.step inT outT (.swap p true)).1.step inT outT (.readOut p)).2 = (s.step inT outT (.readOut p)).2 := by
  simp [DB.step, hp, DB.swapBuffers]

/-- Non-vacuity of the hypotheses: a sender that writes 5, swaps, and writes 6; two receivers. -/
example : let all : PortId → Bool := fun _ => true
    let h1 : List (DBOp Nat) := [.connectInput 1, .connectInput 2, .connectOutput 3, .modify 3 (fun _ => 5)]
    ((final (DB.step all all) (DB.init 0) h1).step all all (.readOut 3)).2 = .ok (.val 5) ∧
    (final (DB.step all all) (DB.init 0) (h1 ++ .swap 3 false :: [.modify 3 (fun _ => 6), .resetChanged 2])).inPtr 1
      = true := by
  simp [DB.step, DB.connectInput, DB.connectOutput, DB.init, upd, DB.swapBuffers, final, run]

/-! ## C05 -/

/-- C05, double buffering: after every history at most one sender is attached; a second sender or a port of another class
is refused with `std::invalid_argument` and changes nothing; a port is attached after connecting; disconnecting returns
`true` exactly for attached ports (of the right class), and afterwards the port is not attached. -/
theorem doubleBuffering_connections (inT outT : PortId → Bool) (d : α) (h : List (DBOp α)) (p : PortId) :
    let s := final (DB.step inT outT) (DB.init d) h
    (∀ q r, s.outPtr q = true → s.outPtr r = true → q = r) ∧
    ((outT p = false ∨ ∃ q, s.outPtr q = true) →
      s.step inT outT (.connectOutput p) = (s, .throw .invalidArgument)) ∧
    ((outT p = true ∧ ∀ q, s.outPtr q = false) →
      (s.step inT outT (.connectOutput p)).2 = .ok .unit ∧
      (s.step inT outT (.connectOutput p)).1.outPtr p = true) ∧
    (inT p = false → s.step inT outT (.connectInput p) = (s, .throw .invalidArgument)) ∧
    (inT p = true → (s.step inT outT (.connectInput p)).2 = .ok .unit ∧
      ∀ q, (s.step inT outT (.connectInput p)).1.inPtr q = (s.inPtr q || decide (q = p))) ∧
    (s.step inT outT (.disconnectInput p)).2 = .ok (.bool (inT p && s.inPtr p)) ∧
    (inT p = true → ∀ q, (s.step inT outT (.disconnectInput p)).1.inPtr q = (s.inPtr q && decide (q ≠ p))) ∧
    (s.step inT outT (.disconnectOutput p)).2 = .ok (.bool (outT p && s.outPtr p)) ∧
    (outT p = true → (s.step inT outT (.disconnectOutput p)).1.outPtr p = false) := by
  intro s
  obtain ⟨h1, h2, h3⟩ : s.Inv := db_reach inT outT d h
  have hin : ∀ q, s.inPtr q = false ↔ q ∉ s.inputs := fun q => by
    rw [← h1 q]; simp
  refine ⟨?_, ?_, ?_, ?_, ?_, ?_, ?_, ?_, ?_⟩
  · intro q r hq hr
    have := (h2 q).1 hq; have := (h2 r).1 hr; simp_all
  · rintro (ht | ⟨q, hq⟩)
    · simp [DB.step, DB.connectOutput, ht]
    · have := (h2 q).1 hq
      simp [DB.step, DB.connectOutput, this]
  · rintro ⟨ht, hq⟩
    have hn : s.output = none := by
      cases hi : s.output with
      | none => rfl
      | some q => have := (h2 q).2 hi; rw [hq q] at this; simp at this
    simp [DB.step, DB.connectOutput, ht, hn, upd]
  · intro ht; simp [DB.step, DB.connectInput, ht]
  · intro ht
    refine ⟨by simp [DB.step, DB.connectInput, ht], fun q => ?_⟩
    simp only [DB.step, DB.connectInput, ht]
    by_cases hq : q = p <;> simp [hq, upd]
  · simp only [DB.step, DB.disconnectInput]
    split
    · simp_all
    · split
      · rename_i hne
        simp only [Bool.not_eq_true', List.contains_eq_mem, decide_eq_false_iff_not] at hne
        simp [(hin p).2 hne]
      · rename_i ht hne
        simp only [Bool.not_eq_true', List.contains_eq_mem, decide_eq_false_iff_not, not_not] at hne
        simp_all
  · intro ht q
    simp only [DB.step, DB.disconnectInput, ht]
    simp only [Bool.not_true, Bool.false_eq_true, if_false]
    split
    · rename_i hne
      simp only [Bool.not_eq_true', List.contains_eq_mem, decide_eq_false_iff_not] at hne
      by_cases hq : q = p
      · simp [hq, (hin p).2 hne]
      · simp [hq]
    · by_cases hq : q = p <;> simp [upd, hq]
  · simp only [DB.step, DB.disconnectOutput]
    split
    · simp_all
    · split
      · rename_i hne
        have : s.outPtr p = false := by
          cases hp : s.outPtr p with
          | false => rfl
          | true => exact absurd ((h2 p).1 hp).symm hne
        simp [this]
      · rename_i ht hne
        have : s.outPtr p = true := (h2 p).2 (by simpa using Eq.symm (Decidable.not_not.1 hne))
        simp_all
  · intro ht
    simp only [DB.step, DB.disconnectOutput, ht]
    simp only [Bool.not_true, Bool.false_eq_true, if_false]
    split
    · rename_i hne
      cases hp : s.outPtr p with
      | false => rfl
      | true => exact absurd ((h2 p).1 hp).symm hne
    · simp [upd]

def SD.Inv (s : SD α) : Prop :=
  (∀ p, s.inPtr p = true ↔ p ∈ s.inputs) ∧ (∀ p, s.outPtr p = true ↔ s.output = some p) ∧ s.inputs.Nodup

private theorem sd_inv_step (inT outT : PortId → Bool) (s : SD α) (op : SDOp α) (h : s.Inv) :
    (s.step inT outT op).1.Inv := by
  obtain ⟨h1, h2, h3⟩ := h
  cases op with
  | modify p f => simp only [SD.step]; split <;> exact ⟨h1, h2, h3⟩
  | read p => simp only [SD.step]; split <;> exact ⟨h1, h2, h3⟩
  | connectInput p =>
    simp only [SD.step, SD.connectInput]
    split
    · exact ⟨h1, h2, h3⟩
    · split
      · exact ⟨h1, h2, h3⟩
      · rename_i hm
        simp only [List.contains_iff_mem] at hm
        refine ⟨fun q => ?_, h2, ?_⟩
        · have := h1 q
          simp only [upd]
          by_cases hq : q = p
          · simp [hq]
          · simp [hq, this]
        · simp [List.nodup_append, h3]
          exact fun a ha => by rintro rfl; exact hm ha
  | connectOutput p =>
    simp only [SD.step, SD.connectOutput]
    split
    · exact ⟨h1, h2, h3⟩
    · split
      · exact ⟨h1, h2, h3⟩
      · rename_i hn
        simp only [Option.not_isSome_iff_eq_none] at hn
        refine ⟨h1, fun q => ?_, h3⟩
        have := h2 q
        simp only [upd, Option.some.injEq]
        by_cases hq : q = p
        · simp [hq]
        · simp only [hq, if_false, this, hn]; simp [Ne.symm hq]
  | disconnectInput p =>
    simp only [SD.step, SD.disconnectInput]
    split
    · exact ⟨h1, h2, h3⟩
    · split
      · exact ⟨h1, h2, h3⟩
      · refine ⟨fun q => ?_, h2, h3.erase p⟩
        have := h1 q
        simp only [upd]
        rw [h3.mem_erase_iff]
        by_cases hq : q = p
        · simp [hq]
        · simp [hq, this]
  | disconnectOutput p =>
    simp only [SD.step, SD.disconnectOutput]
    split
    · exact ⟨h1, h2, h3⟩
    · split
      · exact ⟨h1, h2, h3⟩
      · rename_i hn
        simp only [ne_eq, Decidable.not_not] at hn
        refine ⟨h1, fun q => ?_, h3⟩
        have := h2 q
        simp only [upd]
        by_cases hq : q = p
        · simp [hq]
        · simp only [hq, if_false, this, ← hn]; simp [Ne.symm hq]

private theorem sd_reach (inT outT : PortId → Bool) (d : α) (h : List (SDOp α)) :
    (final (SD.step inT outT) (SD.init d) h).Inv :=
  final_induction (P := SD.Inv) (sd_inv_step inT outT) (by simp [SD.Inv, SD.init]) h

/-- C05, shared data: same discipline as `doubleBuffering_connections`; in addition every attached receiver immediately
reads what the sender wrote. -/
theorem sharedData_connections (inT outT : PortId → Bool) (d : α) (h : List (SDOp α)) (p : PortId) :
    let s := final (SD.step inT outT) (SD.init d) h
    (∀ q r, s.outPtr q = true → s.outPtr r = true → q = r) ∧
    ((outT p = false ∨ ∃ q, s.outPtr q = true) →
      s.step inT outT (.connectOutput p) = (s, .throw .invalidArgument)) ∧
    ((outT p = true ∧ ∀ q, s.outPtr q = false) →
      (s.step inT outT (.connectOutput p)).2 = .ok .unit ∧
      (s.step inT outT (.connectOutput p)).1.outPtr p = true) ∧
    (inT p = false → s.step inT outT (.connectInput p) = (s, .throw .invalidArgument)) ∧
    (inT p = true → (s.step inT outT (.connectInput p)).2 = .ok .unit ∧
      ∀ q, (s.step inT outT (.connectInput p)).1.inPtr q = (s.inPtr q || decide (q = p))) ∧
    (s.step inT outT (.disconnectInput p)).2 = .ok (.bool (inT p && s.inPtr p)) ∧
    (inT p = true → ∀ q, (s.step inT outT (.disconnectInput p)).1.inPtr q = (s.inPtr q && decide (q ≠ p))) ∧
    (s.step inT outT (.disconnectOutput p)).2 = .ok (.bool (outT p && s.outPtr p)) ∧
    (outT p = true → (s.step inT outT (.disconnectOutput p)).1.outPtr p = false) := by
  intro s
  obtain ⟨h1, h2, h3⟩ : s.Inv := sd_reach inT outT d h
  have hin : ∀ q, s.inPtr q = false ↔ q ∉ s.inputs := fun q => by
    rw [← h1 q]; simp
  refine ⟨?_, ?_, ?_, ?_, ?_, ?_, ?_, ?_, ?_⟩
  · intro q r hq hr
    have := (h2 q).1 hq; have := (h2 r).1 hr; simp_all
  · rintro (ht | ⟨q, hq⟩)
    · simp [SD.step, SD.connectOutput, ht]
    · have := (h2 q).1 hq
      simp [SD.step, SD.connectOutput, this]
  · rintro ⟨ht, hq⟩
    have hn : s.output = none := by
      cases hi : s.output with
      | none => rfl
      | some q => have := (h2 q).2 hi; rw [hq q] at this; simp at this
    simp [SD.step, SD.connectOutput, ht, hn, upd]
  · intro ht; simp [SD.step, SD.connectInput, ht]
  · intro ht
    simp only [SD.step, SD.connectInput, ht]
    simp only [Bool.not_true, Bool.false_eq_true, if_false]
    split
    · rename_i hm
      refine ⟨rfl, fun q => ?_⟩
      by_cases hq : q = p
      · subst hq
        have := (h1 q).2 (by simpa using hm)
        simp [this]
      · simp [hq]
    · refine ⟨rfl, fun q => ?_⟩
      by_cases hq : q = p <;> simp [hq, upd]
  · simp only [SD.step, SD.disconnectInput]
    split
    · simp_all
    · split
      · rename_i hne
        simp only [Bool.not_eq_true', List.contains_eq_mem, decide_eq_false_iff_not] at hne
        simp [(hin p).2 hne]
      · rename_i ht hne
        simp only [Bool.not_eq_true', List.contains_eq_mem, decide_eq_false_iff_not, not_not] at hne
        simp_all
  · intro ht q
    simp only [SD.step, SD.disconnectInput, ht]
    simp only [Bool.not_true, Bool.false_eq_true, if_false]
    split
    · rename_i hne
      simp only [Bool.not_eq_true', List.contains_eq_mem, decide_eq_false_iff_not] at hne
      by_cases hq : q = p
      · simp [hq, (hin p).2 hne]
      · simp [hq]
    · by_cases hq : q = p <;> simp [upd, hq]
  · simp only [SD.step, SD.disconnectOutput]
    split
    · simp_all
    · split
      · rename_i hne
        have : s.outPtr p = false := by
          cases hp : s.outPtr p with
          | false => rfl
          | true => exact absurd ((h2 p).1 hp).symm hne
        simp [this]
      · rename_i ht hne
        have : s.outPtr p = true := (h2 p).2 (by simpa using Eq.symm (Decidable.not_not.1 hne))
        simp_all
  · intro ht
    simp only [SD.step, SD.disconnectOutput, ht]
    simp only [Bool.not_true, Bool.false_eq_true, if_false]
    split
    · rename_i hne
      cases hp : s.outPtr p with
      | false => rfl
      | true => exact absurd ((h2 p).1 hp).symm hne
    · simp [upd]

/-- Shared data: a receiver reads the sender's latest write at once. -/
theorem sharedData_read_latest (inT outT : PortId → Bool) (s : SD α) (p q : PortId) (f : α → α)
    (hp : s.outPtr p = true) (hq : s.inPtr q = true) :
    ((s.step inT outT (.modify p f)).1.step inT outT (.read q)).2 = .ok (.val (f s.data)) := by
  simp [SD.step, hp, hq]

/-- Non-vacuity: reachable states with an attached sender and two receivers; a second sender is refused. -/
example : let all : PortId → Bool := fun _ => true
    let s := final (SD.step all all) (SD.init 0) [.connectInput 1, .connectOutput 3, .connectInput 2]
    s.outPtr 3 = true ∧ s.inPtr 1 = true ∧ (s.step all all (.connectOutput 4)).2 = .throw .invalidArgument := by
  simp [SD.step, SD.connectInput, SD.connectOutput, SD.init, upd, final, run]

end Visr.Protocol
