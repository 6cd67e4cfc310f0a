import Verif.PanningDsp.PyModel
import Verif.PanningDsp.Props
import Mathlib.Data.List.Induction

/-!
# C108: panning messages in Python
-/

namespace Visr.PanningDsp

variable {K : Type} [Field K]

/-! ## Specification -/

/-- The array of the last assignment to the gains that has the given shape. -/
def lastGains (shape : List Nat) (calls : List (PySet K)) : Option (NdArray K) :=
  (calls.filterMap fun c => match c with
    | .gains a => if a.shape = shape then some a else none
    | _ => none).getLast?

/-- The array of the last assignment to the time stamps that has the given shape. -/
def lastStamps (shape : List Nat) (calls : List (PySet K)) : Option (NdArray Nat) :=
  (calls.filterMap fun c => match c with
    | .timeStamps a => if a.shape = shape then some a else none
    | _ => none).getLast?

/-- The array of the last assignment to the transition times that has the given shape. -/
def lastTimes (shape : List Nat) (calls : List (PySet K)) : Option (NdArray Nat) :=
  (calls.filterMap fun c => match c with
    | .transitionTimes a => if a.shape = shape then some a else none
    | _ => none).getLast?

/-- The shape of an assigned array, and the one that the message needs. -/
def Accepts (p : Param K) : PySet K → Prop
  | .gains a => a.shape = [p.rows, p.cols]
  | .timeStamps a => a.shape = [p.rows]
  | .transitionTimes a => a.shape = [p.rows]

/-! ## Lemmas -/

omit [Field K] in
theorem matrix_cases (a : NdArray K) : (∃ r c, a.shape = [r, c] ∧
    matrixFromNdArray a = .ok (r, c, (List.range r).map fun i => (List.range c).map fun j => a.el [i, j])) ∨
    ((∀ r c, a.shape ≠ [r, c]) ∧ matrixFromNdArray a = .throw .invalidArgument) := by
  obtain ⟨s, el⟩ := a
  match s with
  | [] => right; simp [matrixFromNdArray]
  | [_] => right; simp [matrixFromNdArray]
  | [r, c] => left; exact ⟨r, c, rfl, rfl⟩
  | _ :: _ :: _ :: _ => right; simp [matrixFromNdArray]

theorem array_cases (a : NdArray Nat) : (∃ n, a.shape = [n] ∧
    arrayFromNdArray a = .ok ((List.range n).map fun i => a.el [i])) ∨
    ((∀ n, a.shape ≠ [n]) ∧ arrayFromNdArray a = .throw .invalidArgument) := by
  obtain ⟨s, el⟩ := a
  match s with
  | [] => right; simp [arrayFromNdArray]
  | [n] => left; exact ⟨n, rfl, rfl⟩
  | _ :: _ :: _ => right; simp [arrayFromNdArray]

omit [Field K] in
theorem set_gains (p : Param K) (a : NdArray K) : pySet p (.gains a) =
    if a.shape = [p.rows, p.cols] then
      ({ p with gains := (List.range p.rows).map fun i => (List.range p.cols).map fun j => a.el [i, j] }, .ok ())
    else (p, .throw .invalidArgument) := by
  rcases matrix_cases a with ⟨r, c, h, e⟩ | ⟨h, e⟩
  · simp only [pySet, e, Param.copyGains, h]
    by_cases h1 : p.rows = r <;> by_cases h2 : p.cols = c
    · simp [h1, h2]
    · simp [h1, h2, Ne.symm h2]
    · simp [h1, Ne.symm h1]
    · simp [h1, Ne.symm h1]
  · simp [pySet, e, h]

omit [Field K] in
theorem set_stamps (p : Param K) (a : NdArray Nat) : pySet p (.timeStamps a) =
    if a.shape = [p.timeStamps.length] then
      ({ p with timeStamps := (List.range p.timeStamps.length).map fun i => a.el [i] }, .ok ())
    else (p, .throw .invalidArgument) := by
  rcases array_cases a with ⟨n, h, e⟩ | ⟨h, e⟩
  · by_cases h1 : n = p.timeStamps.length
    · subst h1; simp [pySet, e, pyCopy, h]
    · simp [pySet, e, pyCopy, h, h1]
  · simp [pySet, e, h]

omit [Field K] in
theorem set_times (p : Param K) (a : NdArray Nat) : pySet p (.transitionTimes a) =
    if a.shape = [p.transitionTimes.length] then
      ({ p with transitionTimes := (List.range p.transitionTimes.length).map fun i => a.el [i] }, .ok ())
    else (p, .throw .invalidArgument) := by
  rcases array_cases a with ⟨n, h, e⟩ | ⟨h, e⟩
  · by_cases h1 : n = p.transitionTimes.length
    · subst h1; simp [pySet, e, pyCopy, h]
    · simp [pySet, e, pyCopy, h, h1]
  · simp [pySet, e, h]

/-! ## Results -/

omit [Field K] in
/-- **C108 (partial).** After any assignments to the properties of a message whose arrays fit its matrix, every property reads
as last assigned with the right dimensions, or as before if there was no such assignment, and the message keeps its dimensions.
Missing: messages whose arrays do not fit, which can be constructed (`unfit_message`). -/
theorem properties_read_back_partial (p : Param K) (hp : p.WellFormed) (calls : List (PySet K)) :
    (pyRun p calls).WellFormed ∧ (pyRun p calls).rows = p.rows ∧ (pyRun p calls).cols = p.cols ∧
    (pyRun p calls).gains = (match lastGains [p.rows, p.cols] calls with
      | some a => (List.range p.rows).map fun i => (List.range p.cols).map fun j => a.el [i, j]
      | none => p.gains) ∧
    (pyRun p calls).timeStamps = (match lastStamps [p.rows] calls with
      | some a => (List.range p.rows).map fun i => a.el [i]
      | none => p.timeStamps) ∧
    (pyRun p calls).transitionTimes = (match lastTimes [p.rows] calls with
      | some a => (List.range p.rows).map fun i => a.el [i]
      | none => p.transitionTimes) := by
  induction calls using List.reverseRecOn with
  | nil => exact ⟨hp, rfl, rfl, rfl, rfl, rfl⟩
  | append_singleton cs c ih =>
    obtain ⟨⟨w1, w2, w3, w4⟩, hr, hc, hg, hs, ht⟩ := ih
    have hrun : pyRun p (cs ++ [c]) = (pySet (pyRun p cs) c).1 := by simp [pyRun]
    rw [hrun]
    generalize pyRun p cs = q at *
    unfold lastGains lastStamps lastTimes at *
    simp only [List.filterMap_append]
    obtain ⟨qr, qc, qg, qs, qt⟩ := q
    simp only at w1 w2 w3 w4 hr hc hg hs ht
    subst hr hc
    cases c with
    | gains a =>
      rw [set_gains]
      by_cases h : a.shape = [p.rows, p.cols]
      · simp only [h, if_true]
        refine ⟨⟨by simp, by simp, w3, w4⟩, by simp, by simp, ?_, ?_, ?_⟩ <;> simp [h, hs, ht]
      · simp only [w3, w4, h, if_false]
        refine ⟨⟨w1, w2, w3, w4⟩, by simp, by simp, ?_, ?_, ?_⟩ <;> simp [h, hg, hs, ht]
    | timeStamps a =>
      rw [set_stamps]
      by_cases h : a.shape = [p.rows]
      · simp only [w3, w4, h, if_true]
        refine ⟨⟨w1, w2, by simp, w4⟩, by simp, by simp, ?_, ?_, ?_⟩ <;> simp [h, hg, ht]
      · simp only [w3, w4, h, if_false]
        refine ⟨⟨w1, w2, w3, w4⟩, by simp, by simp, ?_, ?_, ?_⟩ <;> simp [h, hg, hs, ht]
    | transitionTimes a =>
      rw [set_times]
      by_cases h : a.shape = [p.rows]
      · simp only [w3, w4, h, if_true]
        refine ⟨⟨w1, w2, w3, by simp⟩, by simp, by simp, ?_, ?_, ?_⟩ <;> simp [h, hg, hs]
      · simp only [w3, w4, h, if_false]
        refine ⟨⟨w1, w2, w3, w4⟩, by simp, by simp, ?_, ?_, ?_⟩ <;> simp [h, hg, hs, ht]

omit [Field K] in
/-- **C108.** Assignments are accepted exactly if the array has one element per object, or per object and loudspeaker; otherwise
`ValueError` is raised and the message stays as it is. -/
theorem assignment_accepted (p : Param K) (hp : p.WellFormed) (c : PySet K) :
    ((pySet p c).2 = .ok () ↔ Accepts p c) ∧ (¬ Accepts p c → pySet p c = (p, .throw .invalidArgument)) := by
  obtain ⟨_, _, h3, h4⟩ := hp
  cases c with
  | gains a =>
    rw [set_gains]
    by_cases h : a.shape = [p.rows, p.cols] <;> simp [Accepts, h]
  | timeStamps a =>
    rw [set_stamps, h3]
    by_cases h : a.shape = [p.rows] <;> simp [Accepts, h]
  | transitionTimes a =>
    rw [set_times, h4]
    by_cases h : a.shape = [p.rows] <;> simp [Accepts, h]

omit [Field K] in
/-- **C108.** A message made from arrays with one start time and one duration per row of the gains has these gains and times. -/
theorem constructed (r c : Nat) (g : NdArray K) (ts tt : NdArray Nat) (hg : g.shape = [r, c]) (hs : ts.shape = [r])
    (ht : tt.shape = [r]) : ∃ p, pyConstruct g ts tt = .ok p ∧ p.WellFormed ∧ p.rows = r ∧ p.cols = c ∧
      (∀ i j, i < r → j < c → (p.gains[i]?.bind (·[j]?)) = some (g.el [i, j])) ∧
      (∀ i < r, p.timeStamps[i]? = some (ts.el [i]) ∧ p.transitionTimes[i]? = some (tt.el [i])) := by
  refine ⟨⟨r, c, (List.range r).map fun i => (List.range c).map fun j => g.el [i, j], (List.range r).map fun i => ts.el [i],
    (List.range r).map fun i => tt.el [i]⟩, ?_, ?_, by simp, by simp, ?_, ?_⟩
  · simp [pyConstruct, matrixFromNdArray, arrayFromNdArray, hg, hs, ht, Param.ofArrays]
  · simp [Param.WellFormed]
  · intro i j hi hj; simp [hi, hj]
  · intro i hi; simp [hi]

omit [Field K] in
/-- **C108, negation.** The constructor also accepts start times for another number of objects. Afterwards every array with one
start time per object is refused, so that the message cannot be repaired by assigning its start times. -/
theorem unfit_message (r c n : Nat) (g : NdArray K) (ts tt : NdArray Nat) (hg : g.shape = [r, c]) (hs : ts.shape = [n])
    (ht : tt.shape = [r]) (hn : n ≠ r) : ∃ p, pyConstruct g ts tt = .ok p ∧ p.rows = r ∧ p.timeStamps.length = n ∧
      ∀ a : NdArray Nat, a.shape = [r] → pySet p (.timeStamps a) = (p, .throw .invalidArgument) := by
  refine ⟨⟨r, c, (List.range r).map fun i => (List.range c).map fun j => g.el [i, j], (List.range n).map fun i => ts.el [i],
    (List.range r).map fun i => tt.el [i]⟩, ?_, rfl, by simp, ?_⟩
  · simp [pyConstruct, matrixFromNdArray, arrayFromNdArray, hg, hs, ht, Param.ofArrays]
  · intro a ha
    rw [set_stamps, if_neg (by simp [ha, Ne.symm hn])]

/-! ## The hypotheses are satisfiable -/

/-- An array of two objects and three loudspeakers. -/
def demoGains : NdArray ℚ := ⟨[2, 3], fun i => i.foldl (fun a k => 10 * a + k) 1⟩

/-- An array with `n` times. -/
def demoTimes (n : Nat) : NdArray Nat := ⟨[n], fun i => 100 + i.headD 0⟩

example : (Param.default 2 3 : Param ℚ).WellFormed := by simp [Param.WellFormed, Param.default, zeroGains]

example : pyRun (Param.default 2 3) [.gains demoGains, .timeStamps (demoTimes 2), .timeStamps (demoTimes 3),
      .transitionTimes ⟨[2, 1], fun _ => 0⟩] =
    ⟨2, 3, [[100, 101, 102], [110, 111, 112]], [100, 101], [infinity, infinity]⟩ := by decide +kernel

example : Accepts (Param.default 2 3 : Param ℚ) (.gains demoGains) ∧
    ¬ Accepts (Param.default 2 3 : Param ℚ) (.timeStamps (demoTimes 3)) := by simp [Accepts, Param.default, demoGains, demoTimes]

example : ∃ p, pyConstruct demoGains (demoTimes 2) (demoTimes 2) = .ok p ∧ p.WellFormed :=
  let ⟨p, h, w, _⟩ := constructed 2 3 demoGains (demoTimes 2) (demoTimes 2) rfl rfl rfl
  ⟨p, h, w⟩

example : ∃ p, pyConstruct demoGains (demoTimes 3) (demoTimes 2) = .ok p ∧ p.timeStamps.length = 3 :=
  let ⟨p, h, _, w, _⟩ := unfit_message 2 3 3 demoGains (demoTimes 3) (demoTimes 2) rfl rfl rfl (by decide)
  ⟨p, h, w⟩

end Visr.PanningDsp
