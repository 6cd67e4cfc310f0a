import Verif.ReverbAttr.Model
import Mathlib.Tactic.SplitIfs
import Mathlib.Data.List.Induction

/-!
# C106: reverberation settings of point sources
-/

namespace Visr.ReverbAttr

variable {K B : Type}

/-! ## Specification -/

/-- The value a call gives to an array of the late reverberation: only nine values are accepted. -/
def GivesBand (b : Band) : Call K B → Option (List K)
  | .band b' v => if b' = b ∧ v.length = 9 then some v else none
  | _ => none

/-- The value a call gives to the onset delay. -/
def GivesOnset : Call K B → Option K
  | .onset v => some v
  | _ => none

/-! ## Proof -/

theorem assignFrom_length {α : Type} : ∀ (l cur : List α) (i : Nat), (assignFrom cur i l).length = cur.length
  | [], _, _ => rfl
  | b :: bs, cur, i => by rw [assignFrom, assignFrom_length bs, List.length_set]

theorem assignFrom_get {α : Type} : ∀ (l cur : List α) (i j : Nat), j < cur.length →
    (assignFrom cur i l)[j]? = if i ≤ j ∧ j < i + l.length then l[j - i]? else cur[j]?
  | [], cur, i, j, _ => by
    have : ¬ (i ≤ j ∧ j < i + ([] : List α).length) := by simp
    rw [if_neg this, assignFrom]
  | b :: bs, cur, i, j, hj => by
    rw [assignFrom, assignFrom_get bs _ _ _ (by simpa using hj)]
    by_cases h : i = j
    · subst h
      rw [if_neg (by omega), if_pos ⟨Nat.le_refl _, by simp⟩, Nat.sub_self]
      simp [hj]
    · by_cases h1 : i + 1 ≤ j ∧ j < i + 1 + bs.length
      · have h2 : i ≤ j ∧ j < i + (b :: bs).length := by
          simp only [List.length_cons]; omega
        rw [if_pos h1, if_pos h2, show j - i = (j - (i + 1)) + 1 by omega, List.getElem?_cons_succ]
      · have h2 : ¬ (i ≤ j ∧ j < i + (b :: bs).length) := by
          simp only [List.length_cons]; omega
        rw [if_neg h1, if_neg h2, List.getElem?_set_ne h]

theorem assignFrom_all {α : Type} (cur l : List α) (h : cur.length = l.length) : assignFrom cur 0 l = l := by
  apply List.ext_getElem?
  intro j
  by_cases hj : j < cur.length
  · rw [assignFrom_get _ _ _ _ hj, if_pos ⟨Nat.zero_le _, by omega⟩, Nat.sub_zero]
  · rw [List.getElem?_eq_none (by rw [assignFrom_length]; omega), List.getElem?_eq_none (by omega)]

variable [Zero K]

theorem reflStep_length {flat : B} {r r' : Reflection K B} {c : ReflCall K B} (h : r.filters.length = 10)
    (hs : reflStep flat r c = .ok r') : r'.filters.length = 10 := by
  cases c with
  | position x y z => injection hs with hs; subst hs; exact h
  | pyPosition pos =>
    simp only [reflStep, setReflectionPosition] at hs
    split_ifs at hs
    all_goals (injection hs with hs; subst hs; exact h)
  | delay v => injection hs with hs; subst hs; exact h
  | level v => injection hs with hs; subst hs; exact h
  | filters l =>
    simp only [reflStep, setReflectionFilters] at hs
    split_ifs at hs
    injection hs with hs
    subst hs
    simp only [assignFrom_length]
    exact h
  | filter i b =>
    simp only [reflStep, setReflectionFilter] at hs
    split_ifs at hs
    injection hs with hs
    subst hs
    simpa using h

theorem makeReflection_length (flat : B) (calls : List (ReflCall K B)) :
    (makeReflection flat calls).filters.length = 10 := by
  induction calls using List.reverseRecOn with
  | nil => rfl
  | append_singleton cs c ih =>
    have e : makeReflection flat (cs ++ [c]) = reflTry flat (makeReflection flat cs) c := by
      simp [makeReflection, List.foldl_append]
    rw [e]
    unfold reflTry
    cases h : reflStep flat (makeReflection flat cs) c with
    | error _ => exact ih
    | ok r' => exact reflStep_length ih h

theorem run_append (flat : B) (h : List (Call K B)) (c : Call K B) :
    run flat (h ++ [c]) = attempt flat (run flat h) c := by simp [run, List.foldl_append]

theorem last_concat {α β : Type} (f : α → Option β) (l : List α) (a : α) :
    ((l ++ [a]).filterMap f).getLast? = (f a).or (l.filterMap f).getLast? := by
  rw [List.filterMap_append]
  cases h : f a with
  | none => simp [h]
  | some b => simp [h]

theorem setReflections_eq (flat : B) (s : Reverb K B) (l : List (Reflection K B)) :
    setReflections flat s l = ⟨l, s.late⟩ := by
  simp only [setReflections, setNumber]
  rw [assignFrom_all]
  simp only [List.length_append, List.length_take, List.length_replicate]
  omega

/-! ## Theorems -/

/-- C106, late reverberation: after every sequence of calls, each of the three arrays reads as the last nine values given
to it, zeros before. Calls with another number of values have no effect. -/
theorem band_history (flat : B) (calls : List (Call K B)) (b : Band) :
    (run flat calls).late.get b = ((calls.filterMap (GivesBand b)).getLast?).getD (List.replicate 9 0) := by
  induction calls using List.reverseRecOn with
  | nil => cases b <;> rfl
  | append_singleton cs c ih =>
    rw [run_append, last_concat]
    have key : ∀ s : Reverb K B, (attempt flat s c).late.get b = (GivesBand b c).getD (s.late.get b) := by
      intro s
      cases c with
      | number n => rfl
      | refl i c =>
        simp only [attempt, perform]
        cases reflection s i with
        | error e => rfl
        | ok r => dsimp only; cases reflStep flat r c <;> rfl
      | reflections l => simp only [attempt, perform, setReflections_eq]; rfl
      | onset v => cases b <;> rfl
      | band b' v =>
        simp only [attempt, perform, Late.set, GivesBand]
        by_cases hv : v.length = 9
        · simp only [hv, numBands, ne_eq, not_true_eq_false, if_false, and_true]
          cases b' <;> cases b <;> rfl
        · simp only [hv, numBands, ne_eq, not_false_eq_true, if_true, and_false, if_false]
          rfl
    rw [key, ih]
    cases GivesBand b c <;> rfl

/-- C106, onset delay: the last value given, zero before. -/
theorem onset_history (flat : B) (calls : List (Call K B)) :
    (run flat calls).late.onset = ((calls.filterMap GivesOnset).getLast?).getD 0 := by
  induction calls using List.reverseRecOn with
  | nil => rfl
  | append_singleton cs c ih =>
    rw [run_append, last_concat]
    have key : ∀ s : Reverb K B, (attempt flat s c).late.onset = (GivesOnset c).getD s.late.onset := by
      intro s
      cases c with
      | number n => rfl
      | refl i c =>
        simp only [attempt, perform]
        cases reflection s i with
        | error e => rfl
        | ok r => dsimp only; cases reflStep flat r c <;> rfl
      | reflections l => simp only [attempt, perform, setReflections_eq]; rfl
      | onset v => rfl
      | band b' v =>
        simp only [attempt, perform, Late.set]
        by_cases hv : v.length = 9
        · simp only [hv, numBands, ne_eq, not_true_eq_false, if_false]
          cases b' <;> rfl
        · simp only [hv, numBands, ne_eq, not_false_eq_true, if_true]
          rfl
    rw [key, ih]
    cases GivesOnset c <;> rfl

/-- C106, arrays: always have nine values. -/
theorem nine_bands (flat : B) (calls : List (Call K B)) (b : Band) : ((run flat calls).late.get b).length = 9 := by
  rw [band_history]
  cases h : (calls.filterMap (GivesBand b)).getLast? with
  | none => rfl
  | some v =>
    have hv := List.mem_of_getLast? h
    rw [List.mem_filterMap] at hv
    obtain ⟨c, _, hg⟩ := hv
    cases c with
    | band b' w =>
      simp only [GivesBand] at hg
      split_ifs at hg with hw
      injection hg with hg
      exact hg ▸ hw.2
    | _ => simp [GivesBand] at hg

/-- C106, filters: each reflection has ten filters after every sequence of calls. -/
theorem ten_filters (flat : B) (calls : List (Call K B)) :
    ∀ r ∈ (run flat calls).reflections, r.filters.length = 10 := by
  induction calls using List.reverseRecOn with
  | nil => intro r hr; cases hr
  | append_singleton cs c ih =>
    rw [run_append]
    generalize run flat cs = s at ih
    intro r hr
    cases c with
    | number n =>
      simp only [attempt, perform, setNumber, List.mem_append] at hr
      rcases hr with hr | hr
      · exact ih r (List.mem_of_mem_take hr)
      · rw [(List.mem_replicate.1 hr).2]; rfl
    | refl i c =>
      simp only [attempt, perform] at hr
      cases h1 : reflection s i with
      | error e => rw [h1] at hr; exact ih r hr
      | ok r0 =>
        rw [h1] at hr
        dsimp only at hr
        cases h2 : reflStep flat r0 c with
        | error e => rw [h2] at hr; exact ih r hr
        | ok r1 =>
          rw [h2] at hr
          dsimp only at hr
          rcases List.mem_or_eq_of_mem_set hr with hr | hr
          · exact ih r hr
          · subst hr
            refine reflStep_length (ih r0 ?_) h2
            unfold reflection at h1
            cases h3 : s.reflections[i]? with
            | none => rw [h3] at h1; cases h1
            | some r2 =>
              rw [h3] at h1
              injection h1 with h1
              exact h1 ▸ List.mem_of_getElem? h3
    | reflections l =>
      simp only [attempt, perform, setReflections_eq, List.mem_map] at hr
      obtain ⟨a, _, rfl⟩ := hr
      exact makeReflection_length flat a
    | onset v => exact ih r hr
    | band b v =>
      simp only [attempt, perform] at hr
      cases h : s.late.set b v with
      | error e => rw [h] at hr; exact ih r hr
      | ok l => rw [h] at hr; exact ih r hr

/-- C106, all filters of a reflection: at most ten are accepted. They read back, and the remaining filters are flat
whatever they were before. -/
theorem filters_set (flat : B) (calls : List (ReflCall K B)) (l : List B) :
    let r := makeReflection flat calls
    (10 < l.length → reflStep flat r (.filters l) = .error .invalidArgument) ∧
    (l.length ≤ 10 → ∃ r', reflStep flat r (.filters l) = .ok r' ∧
      (∀ i, i < 10 → reflectionFilter flat r' i = .ok (l.getD i flat)) ∧
      r'.x = r.x ∧ r'.y = r.y ∧ r'.z = r.z ∧ r'.delay = r.delay ∧ r'.level = r.level) := by
  intro r
  have hr : r.filters.length = 10 := makeReflection_length flat calls
  constructor
  · intro h
    simp [reflStep, setReflectionFilters, numBiquads, h]
  · intro h
    have hn : ¬ l.length > 10 := by omega
    refine ⟨⟨r.x, r.y, r.z, r.delay, r.level, assignFrom (assignFrom r.filters 0 l) l.length
        (List.replicate ((assignFrom r.filters 0 l).length - l.length) flat)⟩,
      by simp only [reflStep, setReflectionFilters, numBiquads, hn, if_false], ?_, rfl, rfl, rfl, rfl, rfl⟩
    intro i hi
    have hi' : ¬ i ≥ numBiquads := by simp only [numBiquads]; omega
    simp only [reflectionFilter, hi', if_false]
    congr 1
    rw [List.getD_eq_getElem?_getD, List.getD_eq_getElem?_getD,
      assignFrom_get _ _ _ _ (by rw [assignFrom_length]; omega), assignFrom_get _ _ _ _ (by omega), assignFrom_length, hr]
    by_cases hl : i < l.length
    · rw [if_neg (by omega), if_pos ⟨Nat.zero_le _, by omega⟩, Nat.sub_zero]
    · rw [if_pos ⟨by omega, by simp only [List.length_replicate]; omega⟩, List.getElem?_replicate,
        if_pos (by omega), List.getElem?_eq_none (by omega)]
      rfl

/-- C106, one filter of a reflection: is set if there is one with this index, and no other changes. -/
theorem filter_set (flat : B) (calls : List (ReflCall K B)) (i : Nat) (b : B) :
    let r := makeReflection flat calls
    (10 ≤ i → reflStep flat r (.filter i b) = .error .outOfRange ∧ reflectionFilter flat r i = .error .outOfRange) ∧
    (i < 10 → ∃ r', reflStep flat r (.filter i b) = .ok r' ∧ reflectionFilter flat r' i = .ok b ∧
      ∀ j, j ≠ i → reflectionFilter flat r' j = reflectionFilter flat r j) := by
  intro r
  have hr : r.filters.length = 10 := makeReflection_length flat calls
  constructor
  · intro h
    simp [reflStep, setReflectionFilter, reflectionFilter, numBiquads, hr, h]
  · intro h
    refine ⟨{ r with filters := r.filters.set i b }, ?_, ?_, ?_⟩
    · simp [reflStep, setReflectionFilter, hr, Nat.not_le.mpr h]
    · simp [reflectionFilter, numBiquads, Nat.not_le.mpr h, hr, h]
    · intro j hj
      simp [reflectionFilter, List.getElem?_set_ne (Ne.symm hj)]

/-- C106, attributes of a reflection: position, delay and level read as set and do not affect each other. -/
theorem reflection_attributes (flat : B) (r : Reflection K B) (x y z v : K) :
    reflStep flat r (.position x y z) = .ok ⟨x, y, z, r.delay, r.level, r.filters⟩ ∧
    reflStep flat r (.pyPosition [x, y, z]) = .ok ⟨x, y, z, r.delay, r.level, r.filters⟩ ∧
    reflStep flat r (.pyPosition [x, y]) = .ok ⟨x, y, 0, r.delay, r.level, r.filters⟩ ∧
    (∀ pos : List K, pos.length ≠ 2 → pos.length ≠ 3 → reflStep flat r (.pyPosition pos) = .error .invalidArgument) ∧
    reflStep flat r (.delay v) = .ok ⟨r.x, r.y, r.z, v, r.level, r.filters⟩ ∧
    reflStep flat r (.level v) = .ok ⟨r.x, r.y, r.z, r.delay, v, r.filters⟩ := by
  refine ⟨rfl, rfl, rfl, fun pos h2 h3 => ?_, rfl, rfl⟩
  have : pos.length < 2 ∨ pos.length > 3 := by omega
  simp [reflStep, setReflectionPosition, this]

/-- C106, access to a reflection: its index must exist; a call changes this reflection only. -/
theorem one_reflection_changed (flat : B) (s : Reverb K B) (i : Nat) (c : ReflCall K B) :
    (s.reflections.length ≤ i → perform flat s (.refl i c) = .error .outOfRange) ∧
    (∀ r r', reflection s i = .ok r → reflStep flat r c = .ok r' → ∃ s', perform flat s (.refl i c) = .ok s' ∧
      reflection s' i = .ok r' ∧ (∀ j, j ≠ i → reflection s' j = reflection s j) ∧ s'.late = s.late) := by
  constructor
  · intro h
    simp [perform, reflection, List.getElem?_eq_none h]
  · intro r r' hr hc
    refine ⟨{ s with reflections := s.reflections.set i r' }, by simp [perform, hr, hc], ?_, ?_, rfl⟩
    · have hi : i < s.reflections.length := by
        by_contra hn
        simp [reflection, List.getElem?_eq_none (Nat.not_lt.mp hn)] at hr
      simp [reflection, hi]
    · intro j hj
      simp [reflection, List.getElem?_set_ne (Ne.symm hj)]

/-- C106, reflections from Python: the list that is set reads back. -/
theorem reflections_set (flat : B) (s : Reverb K B) (l : List (List (ReflCall K B))) :
    ∃ s', perform flat s (.reflections l) = .ok s' ∧ s'.reflections.length = l.length ∧ s'.late = s.late ∧
      ∀ i (h : i < l.length), reflection s' i = .ok (makeReflection flat l[i]) := by
  refine ⟨⟨l.map (makeReflection flat), s.late⟩, by simp [perform, setReflections_eq], by simp, rfl, fun i h => ?_⟩
  simp [reflection, h]

/-- C106, number of reflections: is changed, and new ones have default values. False of the code is the documented
"invalidates all previously set reflections": those that remain keep their values. -/
theorem reflections_kept (flat : B) (s : Reverb K B) (n : Nat) :
    ∃ s', perform flat s (.number n) = .ok s' ∧ s'.reflections.length = n ∧
      (∀ i, i < n → i < s.reflections.length → reflection s' i = reflection s i) ∧
      (∀ i, i < n → s.reflections.length ≤ i → reflection s' i = .ok ⟨0, 0, 0, 0, 0, List.replicate 10 flat⟩) ∧
      s'.late = s.late := by
  refine ⟨_, rfl, ?_, ?_, ?_, rfl⟩
  · simp only [setNumber, List.length_append, List.length_take, List.length_replicate]; omega
  · intro i hn hi
    simp only [reflection, setNumber]
    rw [List.getElem?_append_left (by simp only [List.length_take]; omega), List.getElem?_take_of_lt hn]
  · intro i hn hi
    simp only [reflection, setNumber]
    rw [List.getElem?_append_right (by simp; omega), List.getElem?_replicate,
      if_pos (by simp only [List.length_take]; omega)]
    rfl

/-- C106, construction of late reverberation settings: each array is given by one value for all bands or by nine
values. -/
theorem late_constructed_partial (onset : K) (levels decay attack : List K)
    (h : ∀ l ∈ [levels, decay, attack], l.length = 1 ∨ l.length = 9) :
    ∃ r, makeLate onset levels decay attack = .ok r ∧ r.onset = onset ∧
      ∀ b, r.get b = (fun l : List K => if l.length = 1 then List.replicate 9 (l.headD 0) else l)
        (match b with | .levels => levels | .decay => decay | .attack => attack) := by
  have key : ∀ l : List K, l.length = 1 ∨ l.length = 9 → initCoeffs (List.replicate numBands 0) l 0 =
      .ok (if l.length = 1 then List.replicate 9 (l.headD 0) else l) := by
    intro l hl
    match l, hl with
    | [v], _ => rfl
    | a :: b :: t, hl =>
      have hl : (a :: b :: t).length = 9 := by
        rcases hl with hl | hl
        · simp at hl
        · exact hl
      simp [initCoeffs, numBands] at hl ⊢
      omega
  refine ⟨_, by rw [makeLate, key _ (h _ (by simp)), key _ (h _ (by simp)), key _ (h _ (by simp))]; rfl, rfl, ?_⟩
  intro b
  cases b <;> rfl

/-- C106, construction, false of the code: lists that are empty, as the default arguments are, do not give default
values. The construction fails. -/
theorem defaults_refused (onset : K) (levels decay attack : List K) (h : [] ∈ [levels, decay, attack]) :
    makeLate onset levels decay attack = .error .invalidArgument := by
  have key : ∀ l : List K, initCoeffs (List.replicate numBands 0) l 0 = .error .invalidArgument ∨
      ∃ v, initCoeffs (List.replicate numBands 0) l 0 = .ok v := by
    intro l
    cases l with
    | nil => exact .inl rfl
    | cons a t =>
      cases t with
      | nil => exact .inr ⟨_, rfl⟩
      | cons b t =>
        simp only [initCoeffs]
        split_ifs
        all_goals first | exact .inr ⟨_, rfl⟩ | exact .inl rfl
  have he : initCoeffs (List.replicate numBands (0 : K)) [] 0 = .error .invalidArgument := rfl
  unfold makeLate
  simp only [List.mem_cons, List.not_mem_nil, or_false] at h
  rcases h with h | h | h
  · subst h; rw [he]; rfl
  · subst h
    rcases key levels with h1 | ⟨v, h1⟩ <;> rw [h1]
    · rfl
    · rw [he]; rfl
  · subst h
    rcases key levels with h1 | ⟨v, h1⟩ <;> rw [h1]
    · rfl
    · rcases key decay with h2 | ⟨w, h2⟩ <;> rw [h2]
      · rfl
      · rw [he]; rfl

/-! ## Examples -/

/-- A history with accepted and refused calls. -/
def history : List (Call Nat Nat) :=
  [.number 2, .refl 1 (.filters [5, 6]), .refl 1 (.filters [7]), .refl 2 (.delay 3), .number 3, .band .decay [1, 2],
    .band .levels [1, 2, 3, 4, 5, 6, 7, 8, 9], .onset 4]

example : ((run 1 history).reflections.map (·.filters)) =
    [List.replicate 10 1, 7 :: List.replicate 9 1, List.replicate 10 1] := by decide

example : (run 1 history).late.get .levels = [1, 2, 3, 4, 5, 6, 7, 8, 9] ∧
    (run 1 history).late.get .decay = List.replicate 9 0 := by decide

/-- Hypotheses of `late_constructed_partial`. -/
example : ∃ r, makeLate 3 [2] [1, 2, 3, 4, 5, 6, 7, 8, 9] [0] = .ok r ∧ r.levels = List.replicate 9 2 := ⟨_, rfl, rfl⟩

/-- Hypotheses of `defaults_refused`: only the onset is given. -/
example : makeLate 3 [] [] [] = .error .invalidArgument := defaults_refused _ _ _ _ (by simp)

end Visr.ReverbAttr
