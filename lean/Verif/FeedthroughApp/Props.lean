import Verif.FeedthroughApp.Model
import Mathlib.Tactic.SplitIfs

/-!
# C107: the feedthrough application connects inputs to outputs
-/

namespace Visr.FeedthroughApp
open Visr Visr.Flow Visr.Wiring

/-! ## Specification -/

/-- The pairs of a send channel and a receive channel that a connection stands for, where the receiver is `r` and the
receive channel is `j`. -/
def from_ (c : AConn) (r j : Nat) : List Nat :=
  (c.sendIndices.zip c.receiveIndices).filterMap fun p => if c.receiver = r ∧ p.2 = j then some p.1 else none

/-- The channels of the input that are connected to channel `j` of the port `r` (1: the output, 2: the terminator). -/
def sources (t : Tables) (r j : Nat) : List Nat := t.audio.flatMap fun c => from_ c r j

/-! ## Proof -/

theorem foldl_max_lt {w : Nat} : ∀ (l : List Nat) (a : Nat), a < w → (∀ x ∈ l, x < w) → l.foldl max a < w
  | [], _, ha, _ => ha
  | b :: l, a, ha, h => by
    rw [List.foldl_cons]
    exact foldl_max_lt l _ (Nat.max_lt.mpr ⟨ha, h b (by simp)⟩) fun x hx => h x (by simp [hx])

theorem range_add (a n : Nat) : range a (a + n) = List.range' a n := by simp [range]

theorem connect_ok (s r : APort) (a b n : Nat) (t : Tables) (ha : a + n ≤ s.width) (hb : b + n ≤ r.width) :
    connectLists s (List.range' a n) r (List.range' b n) t =
      .ok (if n = 0 then t else { t with audio := t.audio ++ [⟨s.id, List.range' a n, r.id, List.range' b n⟩] }) := by
  unfold connectLists
  simp only [List.length_range', ne_eq, not_true_eq_false, if_false]
  by_cases hn : n = 0
  · simp [hn]
  · have h1 : (List.range' a n).foldl max 0 < s.width := by
      refine foldl_max_lt _ _ (by omega) fun x hx => ?_
      have := List.mem_range'_1.1 hx
      omega
    have h2 : (List.range' b n).foldl max 0 < r.width := by
      refine foldl_max_lt _ _ (by omega) fun x hx => ?_
      have := List.mem_range'_1.1 hx
      omega
    rw [if_neg hn, if_neg (Nat.not_le.mpr h1), if_neg (Nat.not_le.mpr h2), if_neg hn]

theorem from_range (s r' r j : Nat) : ∀ (n a b : Nat),
    from_ ⟨s, List.range' a n, r', List.range' b n⟩ r j = if r' = r ∧ b ≤ j ∧ j < b + n then [a + (j - b)] else []
  | 0, a, b => by
    have : ¬ (r' = r ∧ b ≤ j ∧ j < b + 0) := by omega
    rw [if_neg this]
    rfl
  | n + 1, a, b => by
    have ih := from_range s r' r j n (a + 1) (b + 1)
    unfold from_ at ih ⊢
    dsimp only at ih ⊢
    rw [List.range'_succ, List.range'_succ, List.zip_cons_cons, List.filterMap_cons]
    by_cases h : r' = r ∧ b = j
    · rw [if_pos h]
      dsimp only
      rw [ih, if_neg (by omega), if_pos (by omega)]
      congr 1
      omega
    · rw [if_neg h]
      dsimp only
      rw [ih]
      by_cases h2 : r' = r ∧ b + 1 ≤ j ∧ j < b + 1 + n
      · rw [if_pos h2, if_pos (by omega)]
        congr 1
        omega
      · rw [if_neg h2, if_neg (by omega)]

theorem sources_connect (t : Tables) (s r' a b n r j : Nat) :
    sources (if n = 0 then t else { t with audio := t.audio ++ [⟨s, List.range' a n, r', List.range' b n⟩] }) r j =
      sources t r j ++ if r' = r ∧ b ≤ j ∧ j < b + n then [a + (j - b)] else [] := by
  by_cases hn : n = 0
  · rw [if_pos hn, if_neg (by omega), List.append_nil]
  · rw [if_neg hn]
    unfold sources
    dsimp only
    rw [List.flatMap_append]
    simp only [List.flatMap_cons, List.flatMap_nil, List.append_nil]
    rw [from_range]

theorem loop_ok {inputs outputs : Nat} (hi : 0 < inputs) : ∀ (n start : Nat) (t : Tables), outputs - start < n →
    (start = outputs ∨ (start < outputs ∧ inputs ∣ start)) →
    (∀ j, sources t 1 j = if j < start then [j % inputs] else []) → (∀ j, sources t 2 j = []) →
    ∃ t', loop inputs outputs n start t = some (.ok t') ∧
      (∀ j, sources t' 1 j = if j < outputs then [j % inputs] else []) ∧ ∀ j, sources t' 2 j = []
  | 0, start, t, hn, _, _, _ => absurd hn (Nat.not_lt_zero _)
  | n + 1, start, t, hn, hs, h1, h2 => by
    rcases hs with hs | ⟨hs, hd⟩
    · subst hs
      refine ⟨t, by simp [loop], h1, h2⟩
    · simp only [loop, hs, if_true]
      generalize hc : min inputs (outputs - start) = curr
      have hr0 : range 0 curr = List.range' 0 curr := by rw [← range_add 0 curr, Nat.zero_add]
      rw [hr0, range_add, connect_ok _ _ _ _ _ _ (by simp only [input]; omega) (by simp only [output]; omega)]
      dsimp only
      refine loop_ok hi n (start + curr) _ (by omega) ?_ ?_ ?_
      · by_cases hl : inputs < outputs - start
        · right
          have : curr = inputs := by omega
          exact ⟨by omega, by rw [this]; exact Nat.dvd_add hd (Nat.dvd_refl _)⟩
        · left; omega
      · intro j
        rw [sources_connect, h1]
        by_cases hj : j < start
        · rw [if_pos hj, if_neg (by omega), if_pos (by omega), List.append_nil]
        · by_cases hj' : j < start + curr
          · rw [if_neg hj, if_pos ⟨rfl, by omega, hj'⟩, if_pos hj', List.nil_append]
            obtain ⟨k, rfl⟩ := hd
            have e : j = (j - inputs * k) + inputs * k := by omega
            rw [show j % inputs = j - inputs * k by
              conv_lhs => rw [e]
              rw [Nat.add_mul_mod_self_left, Nat.mod_eq_of_lt (by omega)]]
            simp
          · rw [if_neg hj, if_neg (by omega), if_neg hj', List.append_nil]
      · intro j
        rw [sources_connect, h2, if_neg (by simp [output]), List.append_nil]

/-! ## Theorems -/

/-- C107: with at least one input, or without outputs, the application is constructed. Each output channel is fed by
exactly one input channel: those of the same number, and again from the first if there are more outputs than inputs. The
inputs without an output are connected to the terminator, each to its own channel. -/
theorem feedthrough_partial (inputs outputs : Nat) (h : 0 < inputs ∨ outputs = 0) :
    ∃ t, (∀ n, outputs < n → construct inputs outputs n = some (.ok t)) ∧
      (∀ j, sources t 1 j = if j < outputs then [j % inputs] else []) ∧
      (∀ j, sources t 2 j = if j < inputs - outputs then [outputs + j] else []) := by
  by_cases hgt : inputs > outputs
  · have e : construct inputs outputs = fun _ => some (.ok
        (if inputs - outputs = 0 then
          (if outputs = 0 then (⟨[], []⟩ : Tables) else
            { (⟨[], []⟩ : Tables) with
              audio := [] ++ [⟨0, List.range' 0 outputs, 1, List.range' 0 outputs⟩] })
        else { (if outputs = 0 then (⟨[], []⟩ : Tables) else
            { (⟨[], []⟩ : Tables) with
              audio := [] ++ [⟨0, List.range' 0 outputs, 1, List.range' 0 outputs⟩] }) with
          audio := (if outputs = 0 then (⟨[], []⟩ : Tables) else
            { (⟨[], []⟩ : Tables) with
              audio := [] ++ [⟨0, List.range' 0 outputs, 1, List.range' 0 outputs⟩] }).audio ++
            [⟨0, List.range' outputs (inputs - outputs), 2, List.range' 0 (inputs - outputs)⟩] })) := by
      funext n
      simp only [construct, hgt, if_true]
      have r0 : ∀ k, range 0 k = List.range' 0 k := fun k => by rw [← range_add 0 k, Nat.zero_add]
      have r1 : range outputs inputs = List.range' outputs (inputs - outputs) := rfl
      rw [r0, r0, r1, connect_ok _ _ _ _ _ _ (by simp only [input]; omega) (by simp only [output]; omega)]
      dsimp only
      rw [connect_ok _ _ _ _ _ _ (by simp only [input]; omega) (by simp only [terminator, if_pos hgt]; omega)]
      rfl
    refine ⟨_, fun n _ => by rw [e], ?_, ?_⟩
    · intro j
      rw [sources_connect, sources_connect]
      rw [if_neg (by omega : ¬ (2 = 1 ∧ _))]
      by_cases hj : j < outputs
      · rw [if_pos ⟨rfl, Nat.zero_le _, by omega⟩, if_pos hj, Nat.mod_eq_of_lt (by omega)]
        simp [sources]
      · rw [if_neg (by omega), if_neg hj]
        rfl
    · intro j
      rw [sources_connect, sources_connect]
      rw [if_neg (by omega : ¬ (1 = 2 ∧ _))]
      by_cases hj : j < inputs - outputs
      · rw [if_pos ⟨rfl, Nat.zero_le _, by omega⟩, if_pos hj]
        simp [sources]
      · rw [if_neg (by omega), if_neg hj]
        rfl
  · by_cases hi : 0 < inputs
    · have key : ∀ n, outputs < n → ∃ t', loop inputs outputs n 0 ⟨[], []⟩ = some (.ok t') ∧
          (∀ j, sources t' 1 j = if j < outputs then [j % inputs] else []) ∧ ∀ j, sources t' 2 j = [] := by
        intro n hn
        refine loop_ok hi n 0 ⟨[], []⟩ (by omega) (.inr ⟨by omega, Nat.dvd_zero _⟩) ?_ (fun _ => rfl)
        intro j
        rw [if_neg (Nat.not_lt_zero _)]
        rfl
      have mono : ∀ (n start : Nat) (t : Tables) (x : Outcome Tables), loop inputs outputs n start t = some x →
          ∀ m, n ≤ m → loop inputs outputs m start t = some x := by
        intro n
        induction n with
        | zero => intro start t x hx; cases hx
        | succ n ih =>
          intro start t x hx m hm
          obtain ⟨m, rfl⟩ : ∃ k, m = k + 1 := ⟨m - 1, by omega⟩
          unfold loop at hx ⊢
          by_cases hs : start < outputs
          · rw [if_pos hs] at hx ⊢
            dsimp only at hx ⊢
            split at hx
            · exact ih _ _ _ hx _ (by omega)
            · exact hx
            · exact hx
          · rw [if_neg hs] at hx ⊢
            exact hx
      obtain ⟨t, ht, h1, h2⟩ := key (outputs + 1) (Nat.lt_succ_self _)
      refine ⟨t, fun n hn => ?_, h1, fun j => ?_⟩
      · simp only [construct, hgt, if_false]
        exact mono _ _ _ _ ht n hn
      · rw [h2, if_neg (by omega)]
    · have h0 : outputs = 0 := by omega
      subst h0
      refine ⟨⟨[], []⟩, fun n hn => ?_, fun j => ?_, fun j => ?_⟩
      · obtain ⟨m, rfl⟩ : ∃ k, n = k + 1 := ⟨n - 1, by omega⟩
        simp [construct, hgt, loop]
      · rw [if_neg (Nat.not_lt_zero _)]; rfl
      · rw [if_neg (by omega)]; rfl

/-- C107: each input channel is used: it is connected to an output or to the terminator. -/
theorem inputs_used (inputs outputs i : Nat) (hi : i < inputs) :
    ∃ t, (∀ n, outputs < n → construct inputs outputs n = some (.ok t)) ∧ ∃ r j, sources t r j = [i] := by
  obtain ⟨t, ht, h1, h2⟩ := feedthrough_partial inputs outputs (.inl (by omega))
  refine ⟨t, ht, ?_⟩
  by_cases h : i < outputs
  · exact ⟨1, i, by rw [h1, if_pos h, Nat.mod_eq_of_lt hi]⟩
  · refine ⟨2, i - outputs, ?_⟩
    rw [h2, if_pos (by omega)]
    congr 1
    omega

/-- C107, false of the code: without inputs and with outputs, the construction never ends. -/
theorem no_inputs_hang (outputs : Nat) (h : 0 < outputs) (n : Nat) : construct 0 outputs n = none := by
  have key : ∀ (n : Nat) (t : Tables), loop 0 outputs n 0 t = none := by
    intro n
    induction n with
    | zero => intro t; rfl
    | succ n ih =>
      intro t
      unfold loop
      rw [if_pos h]
      simp only [Nat.zero_min]
      have : connectLists (input 0) (range 0 0) (output outputs) (range 0 (0 + 0)) t = .ok t := rfl
      rw [this]
      exact ih t
  have : ¬ (0 > outputs) := by omega
  simp only [construct, this, if_false]
  exact key n _

/-! ## Examples -/

/-- Two inputs, five outputs: hypotheses of `feedthrough_partial`. -/
example : ((construct 2 5 6).map fun o => match o with
    | .ok t => (List.range 5).map (sources t 1)
    | _ => []) = some [[0], [1], [0], [1], [0]] := by decide

/-- Three inputs, one output. -/
example : ((construct 3 1 2).map fun o => match o with
    | .ok t => (sources t 1 0, sources t 2 0, sources t 2 1)
    | _ => ([], [], [])) = some ([0], [1], [2]) := by decide

end Visr.FeedthroughApp
