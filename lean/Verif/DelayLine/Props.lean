import Mathlib.Tactic.IntervalCases
import Verif.DelayLine.Lemmas
import Mathlib.Algebra.Order.Field.Rat
import Mathlib.Data.Rat.Floor
import Mathlib.Algebra.Order.Group.MinMax
import Mathlib.Tactic.NormNum

/-!
# C16, C46: delay lines
-/

set_option linter.unusedSectionVars false

namespace Visr.DelayLine
open Visr Visr.CircularBuffer Polynomial

variable {K : Type*} [Field K] [LinearOrder K] [IsStrictOrderedRing K] [FloorRing K]

/-- Write a sequence of multichannel blocks into the delay line. -/
def writeAll (d : DL K) : List (Nat → Nat → K) → Outcome (DL K)
  | [] => .ok d
  | b :: bs =>
    match write d b d.ring.channels with
    | .ok d' => writeAll d' bs
    | .throw e => .throw e
    | .ub => .ub

/-- The signal of one channel written so far: all blocks of `blockLength` samples one after the other. -/
def written (blockLength ch : Nat) (blocks : List (Nat → Nat → K)) : List K :=
  blocks.flatMap (fun b => (List.range blockLength).map (b ch))

theorem writeAll_ok {d : DL K} {s : Nat → List K} (h : Rep d.ring s) (hb : d.blockLength ≤ d.ring.length)
    (blocks : List (Nat → Nat → K)) :
    ∃ d', writeAll d blocks = .ok d' ∧ Rep d'.ring (fun ch => s ch ++ written d.blockLength ch blocks) ∧
      d'.blockLength = d.blockLength ∧ d'.fs = d.fs ∧ d'.maxDelay = d.maxDelay ∧ d'.policy = d.policy ∧
      d'.order = d.order ∧ d'.ring.channels = d.ring.channels ∧ d'.ring.length = d.ring.length := by
  induction blocks generalizing d s with
  | nil => exact ⟨d, rfl, by simpa [written] using h, rfl, rfl, rfl, rfl, rfl, rfl, rfl⟩
  | cons b bs ih =>
    obtain ⟨r, h1, h2, h3, h4⟩ := rep_write h b hb
    have hw : write d b d.ring.channels = .ok { d with ring := r } := by simp [write, h1]
    obtain ⟨d', g1, g2, g3, g4, g5, g6, g7, g8, g9⟩ := ih (d := { d with ring := r }) h2 (by simpa [h4] using hb)
    refine ⟨d', ?_, ?_, g3, g4, g5, g6, g7, by rw [g8, ← h3], by rw [g9, ← h4]⟩
    · rw [writeAll, hw]; exact g1
    · have : (fun ch => (s ch ++ (List.range d.blockLength).map (b ch)) ++ written d.blockLength ch bs)
          = (fun ch => s ch ++ written d.blockLength ch (b :: bs)) := by
        funext ch; simp [written]
      rw [← this]; exact g2

/-- **C46.** Fractional delays for every interpolation order, policy, block length and history. For any blocks written,
any channel, up to `blockLength` samples and delays accepted by the policy, sample `i` of the result belongs to the
`(n - i)`-th last input sample and is the linearly interpolated gain times the signal delayed by the linearly
interpolated total delay, where non-integer delays are evaluated on the interpolation polynomial. The hypotheses
`hroomS`, `hroomE` (total delay plus half the order within the configured maximum) are missing in the code, see
`delayLine_near_maximum_ub`. -/
theorem delayLine_fractional_partial {eps : K} (heps : 0 ≤ eps) (channels blockLength order align : Nat)
    (fs maxSeconds : K) (policy : Policy) (hblock : 0 < blockLength) (hmax : 0 ≤ ⌈maxSeconds * fs⌉)
    (blocks : List (Nat → Nat → K)) (ch n : Nat) (hch : ch < channels) (hn : n ≤ blockLength)
    (startDelay endDelay startGain endGain : K)
    (hS : accepted policy order (startDelay * fs) (⌈maxSeconds * fs⌉ : K))
    (hE : accepted policy order (endDelay * fs) (⌈maxSeconds * fs⌉ : K))
    (hroomS : totalDelay policy order (startDelay * fs) + (order : K) / 2 ≤ (⌈maxSeconds * fs⌉ : K))
    (hroomE : totalDelay policy order (endDelay * fs) + (order : K) / 2 ≤ (⌈maxSeconds * fs⌉ : K)) :
    ∃ d, writeAll (build channels fs blockLength maxSeconds order policy align) blocks = .ok d ∧
      interpolate eps d ch n startDelay endDelay startGain endGain = .ok ((List.range n).map fun i =>
        ramp startGain endGain n i *
          fractional (fun k => past (written blockLength ch blocks) (n - i + k)) order
            (ramp (totalDelay policy order (startDelay * fs)) (totalDelay policy order (endDelay * fs)) n i)) := by
  set d0 := build channels fs blockLength maxSeconds order policy align with hd0
  have hlen0 : d0.ring.length = ⌈maxSeconds * fs⌉.toNat + blockLength := rfl
  have hrep : Rep d0.ring (fun _ => []) := rep_init _ _ _ (by omega)
  obtain ⟨d, h1, h2, h3, h4, h5, h6, h7, h8, h9⟩ :=
    writeAll_ok hrep (by rw [hlen0]; show blockLength ≤ _; omega) blocks
  refine ⟨d, h1, ?_⟩
  have e3 : d.blockLength = blockLength := h3
  have e4 : d.fs = fs := h4
  have e5 : d.maxDelay = (⌈maxSeconds * fs⌉ : K) := h5
  have e6 : d.policy = policy := h6
  have e7 : d.order = order := h7
  have e8 : d.ring.channels = channels := h8
  have e9 : d.ring.length = ⌈maxSeconds * fs⌉.toNat + blockLength := h9
  have key := interpolate_rep heps (d := d) (s := fun ch => written blockLength ch blocks)
    (by simpa [hd0, build] using h2) ch n (M := ⌈maxSeconds * fs⌉) hmax e5 (by rw [e9, e3]) (by omega)
    (by omega) startDelay endDelay startGain endGain
    (by rw [e4, e6, e7]; exact hS) (by rw [e4, e6, e7]; exact hE) (by rw [e4, e6, e7]; exact hroomS)
    (by rw [e4, e6, e7]; exact hroomE)
  rw [key, e4, e6, e7]

/-- **C16.** Nearest-sample delay lines. For every history of written blocks, channel, number of samples up to the block
length and start and end delays between 0 and the maximum delay, sample `i` of the result is the linearly interpolated
gain times the sample of this channel that lies back the (linearly interpolated) delay, rounded to the nearest
integer. Holds for all method delay policies, up to and including the maximum delay. -/
theorem delayLine_nearest {eps : K} (heps : 0 ≤ eps) (channels blockLength align : Nat) (fs maxSeconds : K)
    (policy : Policy) (hblock : 0 < blockLength) (hmax : 0 ≤ ⌈maxSeconds * fs⌉) (blocks : List (Nat → Nat → K))
    (ch n : Nat) (hch : ch < channels) (hn : n ≤ blockLength) (startDelay endDelay startGain endGain : K)
    (hS0 : 0 ≤ startDelay * fs) (hE0 : 0 ≤ endDelay * fs)
    (hS : startDelay * fs ≤ (⌈maxSeconds * fs⌉ : K)) (hE : endDelay * fs ≤ (⌈maxSeconds * fs⌉ : K)) :
    ∃ d d', mk channels fs blockLength maxSeconds "nearestSample" policy align = .ok d' ∧
      writeAll d' blocks = .ok d ∧
      interpolate eps d ch n startDelay endDelay startGain endGain = .ok ((List.range n).map fun i =>
        ramp startGain endGain n i *
          past (written blockLength ch blocks)
            (n - i + ⌊ramp (startDelay * fs) (endDelay * fs) n i + 1 / 2⌋.toNat)) := by
  have ht : ∀ x : K, 0 ≤ x → totalDelay policy 0 x = x := by
    intro x hx; cases policy <;> simp [totalDelay, hx]
  have ha : ∀ x : K, 0 ≤ x → x ≤ (⌈maxSeconds * fs⌉ : K) → accepted policy 0 x (⌈maxSeconds * fs⌉ : K) := by
    intro x hx hx'; refine ⟨hx', ?_⟩; cases policy <;> simp [hx]
  obtain ⟨d, h1, h2⟩ := delayLine_fractional_partial heps channels blockLength 0 align fs maxSeconds policy hblock hmax
    blocks ch n hch hn startDelay endDelay startGain endGain (ha _ hS0 hS) (ha _ hE0 hE)
    (by rw [ht _ hS0]; simpa using hS) (by rw [ht _ hE0]; simpa using hE)
  refine ⟨d, _, ?_, h1, ?_⟩
  · simp only [mk, methodOrder]; rw [if_neg (by omega)]
  · rw [h2, ht _ hS0, ht _ hE0]
    congr 1
    apply List.map_congr_left
    intro i _
    congr 1
    simp [fractional]

/-- **C16, constant integer delay.** The textbook case: the output is the input `k` samples ago, for each channel. -/
theorem delayLine_integer {eps : K} (heps : 0 ≤ eps) (channels blockLength align : Nat) (fs maxSeconds : K)
    (policy : Policy) (hblock : 0 < blockLength) (hmax : 0 ≤ ⌈maxSeconds * fs⌉) (blocks : List (Nat → Nat → K))
    (ch : Nat) (hch : ch < channels) (k : Nat) (seconds gain : K) (hk : seconds * fs = k)
    (hle : (k : K) ≤ (⌈maxSeconds * fs⌉ : K)) :
    ∃ d d', mk channels fs blockLength maxSeconds "nearestSample" policy align = .ok d' ∧
      writeAll d' blocks = .ok d ∧
      interpolate eps d ch blockLength seconds seconds gain gain = .ok ((List.range blockLength).map fun i =>
        gain * past (written blockLength ch blocks) (blockLength - i + k)) := by
  have hk0 : (0 : K) ≤ k := Nat.cast_nonneg k
  obtain ⟨d, d', h1, h2, h3⟩ := delayLine_nearest heps channels blockLength align fs maxSeconds policy hblock hmax blocks
    ch blockLength hch le_rfl seconds seconds gain gain (by rw [hk]; exact hk0) (by rw [hk]; exact hk0)
    (by rw [hk]; exact hle) (by rw [hk]; exact hle)
  refine ⟨d, d', h1, h2, ?_⟩
  rw [h3]
  congr 1
  apply List.map_congr_left
  intro i _
  have e1 : ∀ x : K, ramp x x blockLength i = x := by intro x; simp [ramp]
  have e2 : ⌊(k : K) + 1 / 2⌋.toNat = k := by
    have : ⌊(k : K) + 1 / 2⌋ = k := by
      rw [Int.floor_eq_iff]; constructor <;> push_cast <;> linarith
    omega
  rw [e1, e1, hk, e2]

/-- **C46, polynomials.** If the signal follows a polynomial of degree at most the interpolation order over the last
samples, then the fractional delay returns exactly the value of this polynomial at the requested time. -/
theorem fractional_polynomial (p : K[X]) (order : Nat) (hp : p.natDegree ≤ order) (x : Nat → K)
    (hx : ∀ k : Nat, x k = p.eval (k : K)) (D : K) : fractional x order D = p.eval D := by
  unfold fractional
  simp only
  set r : Nat := ⌊D - (order : K) / 2 + 1 / 2⌋.toNat
  have hinj : Set.InjOn (fun j : Nat => ((r + j : Nat) : K)) (Finset.range (order + 1)) := by
    intro a _ b _ hab
    have hab' : ((r + a : Nat) : K) = ((r + b : Nat) : K) := hab
    have : r + a = r + b := by exact_mod_cast hab'
    omega
  rw [← Lagrange.eq_interpolate_of_eval_eq (f := p) (fun j => x (r + j)) hinj ?_ (fun j _ => (hx _).symm)]
  rw [Finset.card_range]
  exact lt_of_le_of_lt degree_le_natDegree (by exact_mod_cast Nat.lt_succ_of_le hp)

/-- **C46, rejected delays.** A delay above the maximum is rejected with `out_of_range`, and likewise a negative delay
(beyond rounding) with the `Add` policy and one below the method delay with `Reject`. -/
theorem delayLine_rejects (eps : K) (d : DL K) (ch n : Nat) (hch : ch < d.ring.channels) (sec gS gE : K)
    (h : d.maxDelay < sec * d.fs ∨ (d.policy = .add ∧ sec * d.fs < -eps) ∨
      (d.policy = .reject ∧ sec * d.fs < (d.order : K) / 2)) :
    interpolate eps d ch n sec sec gS gE = .throw .outOfRange := by
  have : adjustDelay eps d sec = .throw .outOfRange := by
    unfold adjustDelay methodDelay
    simp only
    by_cases h0 : sec * d.fs > d.maxDelay
    · rw [if_pos h0]
    · rw [if_neg h0]
      rcases h with h | ⟨hp, h⟩ | ⟨hp, h⟩
      · exact absurd h h0
      · rw [hp]; simp only; rw [if_pos h]
      · rw [hp]; simp only; rw [if_pos (by linarith)]
  unfold interpolate
  rw [if_neg (by omega), this]

/-- A concrete instance: two channels, blocks of two samples, 10 Hz, maximum delay 0.3 s (three samples). -/
example : ∃ d d', mk 2 (10 : ℚ) 2 (3/10) "nearestSample" .add 0 = .ok d' ∧
    writeAll d' [fun _ i => i + 1, fun _ i => i + 3, fun _ i => i + 5] = .ok d ∧
    interpolate (1/1000) d 1 2 (3/10) (3/10) 2 2 = .ok [4, 6] := by
  have hc : ⌈(3/10 : ℚ) * 10⌉ = 3 := by norm_num
  obtain ⟨d, d', h1, h2, h3⟩ := delayLine_integer (K := ℚ) (eps := 1/1000) (by norm_num) 2 2 0 10 (3/10) .add (by norm_num)
    (by rw [hc]; norm_num) [fun _ i => i + 1, fun _ i => i + 3, fun _ i => i + 5] 1 (by norm_num) 3 (3/10) 2 (by norm_num)
    (by rw [hc]; norm_num)
  refine ⟨d, d', h1, h2, ?_⟩
  rw [h3]
  simp [written, past, List.range, List.range.loop]
  norm_num

/-- **C46 (negation near the maximum).** The ring buffer has no room for the `order` additional samples used by
Lagrange interpolation: at the advertised maximum delay, first-order interpolation reads in front of the buffer. -/
theorem delayLine_near_maximum_ub :
    ∃ d d', mk 1 (1 : ℚ) 1 1 "lagrangeOrder1" .add 0 = .ok d' ∧ writeAll d' [fun _ _ => 1, fun _ _ => 1] = .ok d ∧
      interpolate (1/1000) d 0 1 1 1 1 1 = .ub := by
  have hc : (match mk 1 (1 : ℚ) 1 1 "lagrangeOrder1" .add 0 with
      | .ok d' => match writeAll d' [fun _ _ => 1, fun _ _ => 1] with
        | .ok d => decide (d.ring.alloc = 2 ∧ d.ring.w = 0 ∧ d.ring.channels = 1 ∧ d.maxDelay = 1 ∧
            d.blockLength = 1 ∧ d.fs = 1 ∧ d.order = 1 ∧ d.policy = .add)
        | _ => false
      | _ => false) = true := by decide +kernel
  split at hc
  · rename_i d' hd'
    split at hc
    · rename_i d hd
      refine ⟨d, d', hd', hd, ?_⟩
      obtain ⟨h1, h2, h3, h4, h5, h6, h7, h8⟩ := of_decide_eq_true hc
      have ha : adjustDelay (1/1000) d 1 = .ok 1 := by
        simp [adjustDelay, h4, h6, h8]; norm_num
      have hv : (Efl.vectorRamp (List.replicate 1 (0 : ℚ)) 1 (-((1 + 1 : Nat) : ℚ) - 1) (-((1 : Nat) : ℚ) - 1) false true)
          = [-2] := by norm_num [Efl.vectorRamp]
      have hr : roundOffset (-2 : ℚ) = -2 := by
        have := roundOffset_neg (K := ℚ) 2 0 le_rfl
        norm_num at this
        exact this
      have hrd : deref d.ring 0 1 (-2) = .ub := by
        simp [deref, h1, h2, h3]
      unfold interpolate
      rw [if_neg (by omega), ha]
      simp only [lagrangeInterpolate, h5, h7]
      rw [if_neg (by omega), hv]
      simp only [List.range_one, collect, List.getD_cons_zero, hr]
      obtain ⟨c, cs, hcs⟩ : ∃ c cs,
          (Lagrange.calculateCoefficients 1 true ((-2 : ℚ) - ((-2 : Int) : ℚ))).reverse = c :: cs := by
        cases hl : (Lagrange.calculateCoefficients 1 true ((-2 : ℚ) - ((-2 : Int) : ℚ))).reverse with
        | nil =>
          have := Lagrange.length_calculateCoefficients 1 true ((-2 : ℚ) - ((-2 : Int) : ℚ))
          rw [← List.length_reverse, hl] at this
          simp at this
        | cons c cs => exact ⟨c, cs, rfl⟩
      rw [hcs, innerProduct, hrd]
    · simp at hc
  · simp at hc

/-- **Construction.** With a non-negative maximum delay the constructor accepts exactly the method names `nearestSample` and
`lagrangeOrder0` to `lagrangeOrder9`, and uses the interpolation order the name says. -/
theorem delayLine_construct (channels blockLength align : Nat) (fs maxSeconds : K) (hmax : 0 ≤ ⌈maxSeconds * fs⌉)
    (method : String) (policy : Policy) :
    (∀ order : Nat, (order ≤ 9 ∧ method = "lagrangeOrder" ++ toString order) ∨ (order = 0 ∧ method = "nearestSample") →
      mk channels fs blockLength maxSeconds method policy align =
        .ok (build channels fs blockLength maxSeconds order policy align)) ∧
    ((∀ order : Nat, ¬ ((order ≤ 9 ∧ method = "lagrangeOrder" ++ toString order) ∨
        (order = 0 ∧ method = "nearestSample"))) →
      mk channels fs blockLength maxSeconds method policy align = .throw .invalidArgument) := by
  unfold mk
  rw [if_neg (by omega)]
  constructor
  · rintro order (⟨h, rfl⟩ | ⟨rfl, rfl⟩)
    · interval_cases order <;> rfl
    · rfl
  · intro h
    have hn : methodOrder method = none := by
      unfold methodOrder
      split
      · exact absurd (Or.inr ⟨rfl, rfl⟩) (h 0)
      · exact absurd (Or.inl ⟨by omega, by decide⟩) (h 0)
      · exact absurd (Or.inl ⟨by omega, by decide⟩) (h 1)
      · exact absurd (Or.inl ⟨by omega, by decide⟩) (h 2)
      · exact absurd (Or.inl ⟨by omega, by decide⟩) (h 3)
      · exact absurd (Or.inl ⟨by omega, by decide⟩) (h 4)
      · exact absurd (Or.inl ⟨by omega, by decide⟩) (h 5)
      · exact absurd (Or.inl ⟨by omega, by decide⟩) (h 6)
      · exact absurd (Or.inl ⟨by omega, by decide⟩) (h 7)
      · exact absurd (Or.inl ⟨by omega, by decide⟩) (h 8)
      · exact absurd (Or.inl ⟨by omega, by decide⟩) (h 9)
      · rfl
    rw [hn]

example : mk 1 (48000 : ℚ) 64 (1 / 10) "lagrangeOrder3" .limit 0 = .ok (build 1 48000 64 (1 / 10) 3 .limit 0) :=
  (delayLine_construct 1 64 0 48000 (1 / 10) (by norm_num) "lagrangeOrder3" .limit).1 3 (Or.inl ⟨by omega, rfl⟩)

/-- The documented accessors for the implementation delay return the maximum delay instead, whatever the order. -/
theorem delayLine_methodDelay_wrong (channels blockLength order align : Nat) (fs maxSeconds : K) (policy : Policy) :
    methodDelaySamples (build channels fs blockLength maxSeconds order policy align) = (⌈maxSeconds * fs⌉ : K) := rfl

end Visr.DelayLine
