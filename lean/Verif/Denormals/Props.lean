import Verif.Denormals.Model

/-!
# C88: the handling of denormalised numbers is set and restored exactly
-/

namespace Visr.Denormals

/-! ### Specification -/

/-- A control word selects this handling: bit 15 flushes results to zero, bit 6 takes denormalised operands as zero. -/
def Selects (w : Word) (s : State) : Prop := w.getLsbD 15 = s.flushToZero ∧ w.getLsbD 6 = s.denormalsAreZero

/-- Two control words agree in everything else: rounding, exception masks and exception flags. -/
def SameRest (v w : Word) : Prop := ∀ i, i ≠ 15 → i ≠ 6 → v.getLsbD i = w.getLsbD i

/-! ### Lemmas -/

theorem bit_daz (i : Nat) : dazMask.getLsbD i = decide (i = 6) := by
  by_cases h : i < 32
  · have : ∀ i < 32, dazMask.getLsbD i = decide (i = 6) := by decide
    exact this i h
  · rw [BitVec.getLsbD_of_ge _ _ (by omega)]
    simp; omega

theorem bit_ftz (i : Nat) : ftzMask.getLsbD i = decide (i = 15) := by
  by_cases h : i < 32
  · have : ∀ i < 32, ftzMask.getLsbD i = decide (i = 15) := by decide
    exact this i h
  · rw [BitVec.getLsbD_of_ge _ _ (by omega)]
    simp; omega

theorem bit_mask (i : Nat) (h : i < 32) : cwMask.getLsbD i = decide (i ≠ 6 ∧ i ≠ 15) := by
  have : ∀ i < 32, cwMask.getLsbD i = decide (i ≠ 6 ∧ i ≠ 15) := by decide
  exact this i h

theorem and_ne_zero {w m : Word} {k : Nat} (hk : k < 32) (h : ∀ i, m.getLsbD i = decide (i = k)) :
    ((w &&& m) != 0) = w.getLsbD k := by
  have e : ∀ i, (w &&& m).getLsbD i = (decide (i = k) && w.getLsbD k) := by
    intro i
    rw [BitVec.getLsbD_and, h]
    by_cases e : i = k
    · subst e; simp
    · simp [e]
  cases hb : w.getLsbD k with
  | false =>
    have : w &&& m = 0 := by
      apply BitVec.eq_of_getLsbD_eq
      intro i _
      rw [e, hb]
      simp
    rw [this]; rfl
  | true =>
    have hne : w &&& m ≠ 0 := by
      intro h0
      have := e k
      rw [h0, hb] at this
      simp at this
    simpa using hne

theorem set_bits (old : Word) (new : State) (i : Nat) (hi : i < 32) : (set true old new).1.getLsbD i =
    if i = 15 then new.flushToZero else if i = 6 then new.denormalsAreZero else old.getLsbD i := by
  obtain ⟨f, d⟩ := new
  cases f <;> cases d <;>
    simp only [set, if_true, if_false, Bool.false_eq_true, BitVec.getLsbD_or, BitVec.getLsbD_and, bit_daz, bit_ftz,
      bit_mask i hi] <;>
    · by_cases h1 : i = 15
      · subst h1; simp
      · by_cases h2 : i = 6
        · subst h2; simp
        · simp [h1, h2]

/-! ### Theorems -/

/-- **C88.** On Intel processors, `setDenormHandling()` selects the requested handling in the calling thread, changes
nothing else of its control word nor any other thread, and returns the handling which was selected before. -/
theorem sets (m : Machine) (t : Nat) (new : State) :
    Selects ((call true m t (.set new)).1 t) new ∧ SameRest ((call true m t (.set new)).1 t) (m t) ∧
      (∀ t', t' ≠ t → (call true m t (.set new)).1 t' = m t') ∧
      ∃ old, (call true m t (.set new)).2 = some old ∧ Selects (m t) old := by
  have e : (call true m t (.set new)).1 t = (set true (m t) new).1 := by simp [call]
  rw [e]
  refine ⟨⟨?_, ?_⟩, ?_, ?_, ?_⟩
  · rw [set_bits _ _ 15 (by omega)]; simp
  · rw [set_bits _ _ 6 (by omega)]; simp
  · intro i h1 h2
    by_cases h : i < 32
    · rw [set_bits _ _ i h, if_neg h1, if_neg h2]
    · rw [BitVec.getLsbD_of_ge _ _ (by omega), BitVec.getLsbD_of_ge _ _ (by omega)]
  · intro t' h
    simp [call, h]
  · refine ⟨(set true (m t) new).2, rfl, ?_⟩
    unfold set Selects
    simp only [if_true]
    exact ⟨(and_ne_zero (by omega) bit_ftz).symm, (and_ne_zero (by omega) bit_daz).symm⟩

/-- C88: the variant without arguments requests both flags, and from Python, the flags which are left out are not set unless
all are left out. -/
theorem sets_default (intel : Bool) (m : Machine) (t : Nat) :
    call intel m t .setDefault = call intel m t (.set ⟨true, true⟩) ∧
      call intel m t (pySet .none) = call intel m t (.set ⟨true, true⟩) ∧
      (∀ s, call intel m t (pySet (.state s)) = call intel m t (.set s)) ∧
      (∀ f d, call intel m t (pySet (.flags (some f) d)) = call intel m t (.set ⟨f, d.getD false⟩)) ∧
      ∀ f d, call intel m t (pySet (.flags f (some d))) = call intel m t (.set ⟨f.getD false, d⟩) := by
  refine ⟨rfl, rfl, fun _ => rfl, ?_, ?_⟩
  · intro f d; cases d <;> rfl
  · intro f d; cases f <;> rfl

theorem word_ext {v w : Word} (h : ∀ i < 32, v.getLsbD i = w.getLsbD i) : v = w := by
  apply BitVec.eq_of_getLsbD_eq
  intro i hi
  exact h i hi

/-- **C88.** Restoring: whatever other threads do in between, and whichever handling the thread itself selects meanwhile, if
the control word keeps its other bits, resetting to the returned state gives the control word from before the first call. -/
theorem restores (m : Machine) (t : Nat) (new old : State) (hold : (call true m t (.set new)).2 = some old)
    (ops : List (Nat × Op)) : exec true m ((t, .set new) :: ops ++ [(t, .reset old)]) t = m t := by
  have hsel : Selects (m t) old := by
    obtain ⟨-, -, -, o, ho, hs⟩ := sets m t new
    rw [hold] at ho
    injection ho with ho
    rw [ho]; exact hs
  have rest : ∀ (ops : List (Nat × Op)) (m' : Machine), SameRest (m' t) (m t) → SameRest (exec true m' ops t) (m t) := by
    intro ops
    induction ops with
    | nil => intro m' h; exact h
    | cons p os ih =>
      intro m' h
      obtain ⟨t', o⟩ := p
      apply ih
      by_cases ht : t = t'
      · subst ht
        have : ∀ new, SameRest ((set true (m' t) new).1) (m t) := by
          intro new i h1 h2
          by_cases hi : i < 32
          · rw [set_bits _ _ i hi, if_neg h1, if_neg h2]; exact h i h1 h2
          · rw [BitVec.getLsbD_of_ge _ _ (by omega), BitVec.getLsbD_of_ge _ _ (by omega)]
        cases o <;> simp only [call, if_true] <;> exact this _
      · cases o <;> simp only [call, if_neg ht] <;> exact h
  have app : ∀ (a b : List (Nat × Op)) (m' : Machine), exec true m' (a ++ b) = exec true (exec true m' a) b := by
    intro a
    induction a with
    | nil => intro b m'; rfl
    | cons p os ih => intro b m'; exact ih b _
  rw [app]
  have hr := rest ((t, .set new) :: ops) m (fun _ _ _ => rfl)
  generalize exec true m ((t, .set new) :: ops) = m' at hr
  show (call true m' t (.reset old)).1 t = m t
  have e : (call true m' t (.reset old)).1 t = (set true (m' t) old).1 := by simp [call]
  rw [e]
  apply word_ext
  intro i hi
  rw [set_bits _ _ i hi]
  by_cases h1 : i = 15
  · rw [if_pos h1]; subst h1; exact hsel.1.symm
  · rw [if_neg h1]
    by_cases h2 : i = 6
    · rw [if_pos h2]; subst h2; exact hsel.2.symm
    · rw [if_neg h2]; exact hr i h1 h2

/-- C88: on other processors the calls have no effect, and the default state is returned. -/
theorem other_platforms (m : Machine) (ops : List (Nat × Op)) (t : Nat) (new : State) :
    exec false m ops = m ∧ (call false m t (.set new)).2 = some ⟨false, false⟩ := by
  refine ⟨?_, rfl⟩
  induction ops generalizing m with
  | nil => rfl
  | cons p os ih =>
    obtain ⟨t', o⟩ := p
    have : (call false m t' o).1 = m := by
      cases o <;> funext k <;> simp only [call, set, Bool.false_eq_true, if_false] <;> split <;> simp_all
    show exec false (call false m t' o).1 os = m
    rw [this]
    exact ih m

/-- C88: what an application sets in its main thread has no effect on the thread of the audio interface, in which the signal
flow runs. -/
theorem audio_thread_unaffected (intel : Bool) (m : Machine) (audio : Nat) (ops : List (Nat × Op))
    (h : ∀ p ∈ ops, p.1 ≠ audio) : exec intel m ops audio = m audio := by
  induction ops generalizing m with
  | nil => rfl
  | cons p os ih =>
    obtain ⟨t', o⟩ := p
    have ht : audio ≠ t' := fun e => h (t', o) (by simp) e.symm
    have : (call intel m t' o).1 audio = m audio := by cases o <;> simp [call, ht]
    show exec intel (call intel m t' o).1 os audio = m audio
    rw [ih _ fun p hp => h p (by simp [hp]), this]

/-- C88: a concrete case, the default control word `0x1F80`. -/
example : (set true 0x1F80 ⟨true, true⟩) = (0x9FC0#32, ⟨false, false⟩) ∧
    (set true 0x9FC0 ⟨false, true⟩) = (0x1FC0#32, ⟨true, true⟩) := by decide

end Visr.Denormals
