import Verif.Compensation.Model
import Verif.Run
import Mathlib.Tactic.Linarith
import Mathlib.Tactic.Positivity
import Mathlib.Tactic.FieldSimp
import Mathlib.Tactic.Ring
import Mathlib.Tactic.NormNum

/-!
# C36: the listener compensation aligns all loudspeakers
-/

namespace Visr.Compensation

open Visr Visr.Rotation

/-! ### Specification -/

/-- The gains and delays are right for a listener at `p`: with `D` the largest distance of
a loudspeaker, every gain is the distance divided by `D`, so that the level `gain / distance`
at the listener is the same for all loudspeakers, and the sum of the delay and the time of
propagation is `D / 344 m/s`. -/
structure Aligned (speakers : List (Vec ℝ)) (p : Vec ℝ) (gains delays : List (Option ℝ)) : Prop where
  gainCount : gains.length = speakers.length
  delayCount : delays.length = speakers.length
  values : ∃ D : ℝ, (∀ l ∈ speakers, distance l p ≤ D) ∧ (∃ l ∈ speakers, distance l p = D) ∧
    ∀ (i : Nat) (l : Vec ℝ), speakers[i]? = some l →
      ∃ g t : ℝ, gains[i]? = some (some g) ∧ delays[i]? = some (some t) ∧
        g = distance l p / D ∧ 0 ≤ g ∧ g ≤ 1 ∧ (distance l p = D → g = 1) ∧
        0 ≤ t ∧ t + distance l p / 344 = D / 344

/-! ### Lemmas -/

/-- The largest distance, and not less than `m`. -/
noncomputable def maxRad (p : Vec ℝ) (m : ℝ) : List (Vec ℝ) → ℝ
  | [] => m
  | l :: ls => maxRad p (if distance l p > m then distance l p else m) ls

theorem maxRad_facts (p : Vec ℝ) (ls : List (Vec ℝ)) (m : ℝ) :
    m ≤ maxRad p m ls ∧ (∀ l ∈ ls, distance l p ≤ maxRad p m ls) ∧
      (maxRad p m ls = m ∨ ∃ l ∈ ls, distance l p = maxRad p m ls) := by
  induction ls generalizing m with
  | nil => exact ⟨le_refl _, by simp, .inl rfl⟩
  | cons l ls ih =>
    obtain ⟨h1, h2, h3⟩ := ih (if distance l p > m then distance l p else m)
    simp only [maxRad]
    refine ⟨?_, ?_, ?_⟩
    · refine le_trans ?_ h1
      split_ifs with h <;> linarith
    · intro x hx
      rcases List.mem_cons.mp hx with rfl | hx
      · refine le_trans ?_ h1
        split_ifs with h
        · exact le_refl _
        · linarith
      · exact h2 x hx
    · rcases h3 with h3 | ⟨x, hx, h3⟩
      · rw [h3]
        split_ifs with h
        · exact .inr ⟨l, by simp, rfl⟩
        · exact .inl rfl
      · exact .inr ⟨x, by simp [hx], h3⟩

theorem distance_nonneg (l p : Vec ℝ) : 0 ≤ distance l p := Real.sqrt_nonneg _

theorem radLoop_ok (p : Vec ℝ) (ls : List (Vec ℝ)) (i : Nat) (v : List (Option ℝ)) (m : ℝ)
    (h : i + ls.length ≤ v.length) :
    ∃ v', radLoop p ls i v m = .ok (v', maxRad p m ls) ∧ v'.length = v.length ∧
      (∀ j, j < i → v'[j]? = v[j]?) ∧
      (∀ j l, ls[j]? = some l → v'[i + j]? = some (some (distance l p))) := by
  induction ls generalizing i v m with
  | nil => exact ⟨v, rfl, rfl, fun _ _ => rfl, by simp⟩
  | cons l ls ih =>
    simp only [List.length_cons] at h
    obtain ⟨v', h1, h2, h3, h4⟩ := ih (i + 1) (v.set i (some (distance l p)))
      (if distance l p > m then distance l p else m) (by simp; omega)
    refine ⟨v', ?_, by simpa using h2, ?_, ?_⟩
    · simp only [radLoop]
      rw [if_pos (by omega)]
      exact h1
    · intro j hj
      rw [h3 j (by omega), List.getElem?_set_ne (by omega)]
    · intro j x hj
      cases j with
      | zero =>
        simp only [List.getElem?_cons_zero, Option.some.injEq] at hj
        subst hj
        rw [Nat.add_zero, h3 i (by omega), List.getElem?_set_self (by omega)]
      | succ j =>
        have := h4 j x (by simpa using hj)
        rw [show i + (j + 1) = i + 1 + j by omega]
        exact this

theorem mapLoop_ok (f : ℝ → Option ℝ) (n i : Nat) (v : List (Option ℝ)) (h : i + n ≤ v.length) :
    ∃ v', mapLoop f n i v = .ok v' ∧ v'.length = v.length ∧
      (∀ j, j < i → v'[j]? = v[j]?) ∧
      (∀ j x, j < n → v[i + j]? = some x → v'[i + j]? = some (x.bind f)) := by
  induction n generalizing i v with
  | zero => exact ⟨v, rfl, rfl, fun _ _ => rfl, by simp⟩
  | succ n ih =>
    have hi : v[i]? = some v[i] := List.getElem?_eq_getElem (by omega)
    obtain ⟨v', h1, h2, h3, h4⟩ := ih (i + 1) (v.set i (v[i].bind f)) (by simp; omega)
    refine ⟨v', ?_, by simpa using h2, ?_, ?_⟩
    · simp only [mapLoop, hi]
      exact h1
    · intro j hj
      rw [h3 j (by omega), List.getElem?_set_ne (by omega)]
    · intro j x hj hx
      cases j with
      | zero =>
        rw [Nat.add_zero] at hx ⊢
        rw [h3 i (by omega), List.getElem?_set_self (by omega)]
        rw [hi] at hx
        injection hx with hx
        rw [hx]
      | succ j =>
        rw [show i + (j + 1) = i + 1 + j by omega] at hx ⊢
        refine h4 j x (by omega) ?_
        rw [List.getElem?_set_ne (by omega)]
        exact hx

theorem comp_ok (f : ℝ → ℝ → Option ℝ) (ls : List (Vec ℝ)) (p : Vec ℝ) (v : List (Option ℝ))
    (hv : v.length = ls.length) :
    ∃ v1 v2, radLoop p ls 0 v 0 = .ok (v1, maxRad p 0 ls) ∧
      mapLoop (f (maxRad p 0 ls)) ls.length 0 v1 = .ok v2 ∧ v2.length = ls.length ∧
      ∀ (i : Nat) (l : Vec ℝ), ls[i]? = some l → v2[i]? = some (f (maxRad p 0 ls) (distance l p)) := by
  obtain ⟨v1, h1, h2, -, h4⟩ := radLoop_ok p ls 0 v 0 (by omega)
  obtain ⟨v2, g1, g2, -, g4⟩ := mapLoop_ok (f (maxRad p 0 ls)) ls.length 0 v1 (by omega)
  refine ⟨v1, v2, h1, g1, by omega, ?_⟩
  intro i l hi
  have hlt : i < ls.length := (List.getElem?_eq_some_iff.mp hi).1
  have e1 := h4 i l hi
  rw [Nat.zero_add] at e1
  have e2 := g4 i _ hlt (by rw [Nat.zero_add]; exact e1)
  rw [Nat.zero_add] at e2
  exact e2

/-- The outputs for one listener position. -/
theorem calc_aligned (ls : List (Vec ℝ)) (p : Vec ℝ) (v w : List (Option ℝ)) (hv : v.length = ls.length)
    (hw : w.length = ls.length) (hd : ∃ l ∈ ls, distance l p ≠ 0) :
    ∃ g d, calcGainComp ls p v = .ok g ∧ calcDelayComp ls p w = .ok d ∧ Aligned ls p g d := by
  obtain ⟨v1, g, h1, h2, h3, h4⟩ := comp_ok (fun m r => fdiv r m) ls p v hv
  obtain ⟨w1, d, k1, k2, k3, k4⟩ := comp_ok (fun m r => some (|r - m| / c0)) ls p w hw
  refine ⟨g, d, by simp only [calcGainComp, h1, h2], by simp only [calcDelayComp, k1, k2], h3, k3, ?_⟩
  obtain ⟨m1, m2, m3⟩ := maxRad_facts p ls 0
  have hpos : 0 < maxRad p 0 ls := by
    obtain ⟨l, hl, hne⟩ := hd
    exact lt_of_lt_of_le (lt_of_le_of_ne (distance_nonneg l p) (Ne.symm hne)) (m2 l hl)
  refine ⟨maxRad p 0 ls, m2, ?_, ?_⟩
  · rcases m3 with m3 | m3
    · exact absurd m3 hpos.ne'
    · exact m3
  · intro i l hi
    have hmem : l ∈ ls := List.mem_of_getElem? hi
    have hle := m2 l hmem
    have h0 := distance_nonneg l p
    refine ⟨distance l p / maxRad p 0 ls, |distance l p - maxRad p 0 ls| / c0, ?_, k4 i l hi, rfl,
      by positivity, (div_le_one hpos).mpr hle, fun e => by rw [e, div_self hpos.ne'],
      div_nonneg (abs_nonneg _) (by norm_num [c0]), ?_⟩
    · rw [h4 i l hi]
      simp only [fdiv, if_neg hpos.ne']
    · rw [abs_of_nonpos (by linarith)]
      simp only [c0]
      ring

/-! ### Properties -/

/-- C36: for an array without virtual loudspeakers, after any history of listener
positions, the receivers see gains and delays that are right for the last position that
was received, unless all loudspeakers are at that position. -/
theorem compensation_aligned (speakers : List (Vec ℝ)) (hist hist' : List (Option (Vec ℝ))) (p : Vec ℝ)
    (hn : ∀ x ∈ hist', x = none) (hd : ∃ l ∈ speakers, distance l p ≠ 0) :
    let r := run Comp.process (Comp.create speakers speakers.length) (hist ++ some p :: hist')
    (∀ o ∈ r.2, o = .ok ()) ∧ Aligned speakers p r.1.seenGains r.1.seenDelays := by
  -- the lengths of the vectors are kept
  have calcOk : ∀ (p : Vec ℝ) (v w : List (Option ℝ)), v.length = speakers.length → w.length = speakers.length →
      ∃ g d, calcGainComp speakers p v = .ok g ∧ calcDelayComp speakers p w = .ok d ∧
        g.length = speakers.length ∧ d.length = speakers.length := by
    intro p v w hv hw
    obtain ⟨v1, g, h1, h2, h3, -⟩ := comp_ok (fun m r => fdiv r m) speakers p v hv
    obtain ⟨w1, d, k1, k2, k3, -⟩ := comp_ok (fun m r => some (|r - m| / c0)) speakers p w hw
    exact ⟨g, d, by simp only [calcGainComp, h1, h2], by simp only [calcDelayComp, k1, k2], h3, k3⟩
  have step : ∀ (c : Comp) (x : Option (Vec ℝ)), c.speakers = speakers → c.regular = speakers.length →
      (∀ b, (c.gains b).length = speakers.length ∧ (c.delays b).length = speakers.length) →
      (c.process x).2 = .ok () ∧ (c.process x).1.speakers = speakers ∧
        (c.process x).1.regular = speakers.length ∧
        (∀ b, ((c.process x).1.gains b).length = speakers.length ∧
          ((c.process x).1.delays b).length = speakers.length) := by
    intro c x h1 h2 h3
    cases x with
    | none => exact ⟨rfl, h1, h2, h3⟩
    | some p =>
      obtain ⟨g, d, e1, e2, e3, e4⟩ := calcOk p (c.gains c.front) (c.delays c.front) (h3 _).1 (h3 _).2
      simp only [Comp.process]
      rw [if_neg (by simp [(h3 c.front).1, (h3 c.front).2, h2]), h1, e1, e2]
      refine ⟨rfl, rfl, h2, fun b => ?_⟩
      dsimp only
      by_cases hb : b = c.front
      · subst hb; simp [e3, e4]
      · simp [Function.update_of_ne hb, h3 b]
  have runs : ∀ (hist : List (Option (Vec ℝ))) (c : Comp), c.speakers = speakers →
      c.regular = speakers.length →
      (∀ b, (c.gains b).length = speakers.length ∧ (c.delays b).length = speakers.length) →
      (∀ o ∈ (run Comp.process c hist).2, o = .ok ()) ∧ (run Comp.process c hist).1.speakers = speakers ∧
        (run Comp.process c hist).1.regular = speakers.length ∧
        (∀ b, ((run Comp.process c hist).1.gains b).length = speakers.length ∧
          ((run Comp.process c hist).1.delays b).length = speakers.length) := by
    intro hist
    induction hist with
    | nil => intro c h1 h2 h3; exact ⟨by simp [run], h1, h2, h3⟩
    | cons x hist ih =>
      intro c h1 h2 h3
      obtain ⟨s1, s2, s3, s4⟩ := step c x h1 h2 h3
      obtain ⟨r1, r2⟩ := ih (c.process x).1 s2 s3 s4
      refine ⟨?_, r2⟩
      simp only [run, List.mem_cons, forall_eq_or_imp]
      exact ⟨s1, r1⟩
  have quiet : ∀ (hist : List (Option (Vec ℝ))) (c : Comp), (∀ x ∈ hist, x = none) →
      run Comp.process c hist = (c, List.replicate hist.length (.ok ())) := by
    intro hist
    induction hist with
    | nil => intro c _; rfl
    | cons x hist ih =>
      intro c h
      have : x = none := h x (by simp)
      subst this
      simp only [run, Comp.process, ih c (fun x hx => h x (by simp [hx]))]
      rfl
  have app : ∀ (a b : List (Option (Vec ℝ))) (c : Comp), run Comp.process c (a ++ b) =
      ((run Comp.process (run Comp.process c a).1 b).1,
        (run Comp.process c a).2 ++ (run Comp.process (run Comp.process c a).1 b).2) := by
    intro a
    induction a with
    | nil => intro b c; rfl
    | cons x a ih => intro b c; simp only [List.cons_append, run, ih]
  intro r
  obtain ⟨r1, r2, r3, r4⟩ := runs hist (Comp.create speakers speakers.length) rfl rfl
    (fun b => by simp [Comp.create])
  refine ⟨(runs _ _ rfl rfl (fun b => by simp [Comp.create])).1, ?_⟩
  simp only [r]
  rw [app]
  generalize (run Comp.process (Comp.create speakers speakers.length) hist).1 = c at *
  dsimp only
  simp only [run]
  rw [quiet hist' _ hn]
  dsimp only
  obtain ⟨g, d, e1, e2, e3⟩ := calc_aligned speakers p (c.gains c.front) (c.delays c.front)
    (r4 _).1 (r4 _).2 hd
  simp only [Comp.process]
  rw [if_neg (by simp [(r4 c.front).1, (r4 c.front).2, r3]), r2, e1, e2]
  simpa [Comp.seenGains, Comp.seenDelays] using e3

/-- The level of every loudspeaker at the listener, `gain / distance`, is the same. -/
theorem equal_level (speakers : List (Vec ℝ)) (p : Vec ℝ) (gains delays : List (Option ℝ))
    (h : Aligned speakers p gains delays) :
    ∃ level : ℝ, ∀ (i : Nat) (l : Vec ℝ), speakers[i]? = some l → distance l p ≠ 0 →
      ∃ g, gains[i]? = some (some g) ∧ g / distance l p = level := by
  obtain ⟨D, -, -, hv⟩ := h.values
  refine ⟨1 / D, fun i l hi hne => ?_⟩
  obtain ⟨g, t, h1, -, h3, -⟩ := hv i l hi
  refine ⟨g, h1, ?_⟩
  rw [h3]
  by_cases hD : D = 0
  · simp [hD]
  · field_simp

/-- Finding: for an array with virtual loudspeakers the vectors are written beyond their
end whenever a position is received. -/
theorem virtual_speakers_ub (speakers : List (Vec ℝ)) (regular : Nat) (h : regular < speakers.length)
    (p : Vec ℝ) : ((Comp.create speakers regular).process (some p)).2 = .ub := by
  have key : ∀ (ls : List (Vec ℝ)) (i : Nat) (v : List (Option ℝ)) (m : ℝ), v.length < i + ls.length →
      i ≤ v.length → radLoop p ls i v m = .ub := by
    intro ls
    induction ls with
    | nil => intro i v m h1 h2; simp at h1; omega
    | cons l ls ih =>
      intro i v m h1 h2
      simp only [radLoop]
      by_cases h3 : i < v.length
      · rw [if_pos h3]
        exact ih (i + 1) _ _ (by simp at h1 ⊢; omega) (by simp; omega)
      · rw [if_neg h3]
  simp only [Comp.process]
  rw [if_neg (by simp [Comp.create])]
  simp only [Comp.create]
  simp only [calcGainComp]
  rw [key speakers 0 _ _ (by simpa using h) (by omega)]

/-- Finding: if all loudspeakers are at the position of the listener, all gains are NaN. -/
theorem coincident_is_nan (speakers : List (Vec ℝ)) (p : Vec ℝ) (h : ∀ l ∈ speakers, l = p) :
    ((Comp.create speakers speakers.length).process (some p)).1.seenGains =
      List.replicate speakers.length none := by
  have hd : ∀ l ∈ speakers, distance l p = 0 := by
    intro l hl
    rw [h l hl]
    simp [distance]
  have hm : maxRad p 0 speakers = 0 := by
    obtain ⟨m1, m2, m3⟩ := maxRad_facts p speakers 0
    rcases m3 with m3 | ⟨l, hl, m3⟩
    · exact m3
    · rw [← m3]; exact hd l hl
  obtain ⟨v1, g, h1, h2, h3, h4⟩ := comp_ok (fun m r => fdiv r m) speakers p
    (List.replicate speakers.length (some 0)) (by simp)
  obtain ⟨w1, d, k1, k2, k3, k4⟩ := comp_ok (fun m r => some (|r - m| / c0)) speakers p
    (List.replicate speakers.length (some 0)) (by simp)
  have eg : calcGainComp speakers p (List.replicate speakers.length (some 0)) = .ok g := by
    simp only [calcGainComp, h1, h2]
  have ed : calcDelayComp speakers p (List.replicate speakers.length (some 0)) = .ok d := by
    simp only [calcDelayComp, k1, k2]
  simp only [Comp.process]
  rw [if_neg (by simp [Comp.create])]
  simp only [Comp.create]
  rw [eg, ed]
  simp only [Comp.seenGains, Bool.not_not, Function.update_self]
  refine List.ext_getElem? fun i => ?_
  by_cases hi : i < speakers.length
  · rw [h4 i _ (List.getElem?_eq_getElem hi), hm]
    simp [fdiv, hi]
  · rw [List.getElem?_eq_none (by omega), List.getElem?_eq_none (by simp; omega)]

/-- Two loudspeakers at distances 1 and 2. -/
example : ∃ l ∈ ([⟨1, 0, 0⟩, ⟨-2, 0, 0⟩] : List (Vec ℝ)), distance l ⟨0, 0, 0⟩ ≠ 0 :=
  ⟨⟨1, 0, 0⟩, by simp, by simp [distance]⟩

end Visr.Compensation
