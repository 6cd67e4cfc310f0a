import Verif.TimeFreq.Model
import Mathlib.Algebra.BigOperators.Group.Finset.Basic

/-!
# Specification of the time-frequency transforms (C38)

Signals are given sample by sample on one global time axis; frames are numbered consecutively across the processing
periods.
-/

namespace Visr.TimeFreq
open Visr Visr.Convolver Finset

variable {F : Type*}

/-- The signal of a channel at any time: silence before time zero. -/
def at' (x : Nat → ℝ) (t : ℤ) : ℝ := if 0 ≤ t then x t.toNat else 0

/-- Run the analysis on the signals `x` (`x channel time`) for a number of periods; the result gives, for each period, the
content of the output parameter. `old` is what the output parameter contains before each call. -/
def Analysis.run (a : Analysis F) (x : Nat → Nat → ℝ) (old : Nat → Nat → Nat → Nat → F) :
    Nat → Outcome (Analysis F × (Nat → Nat → Nat → Nat → F))
  | 0 => .ok (a, old)
  | n + 1 =>
    match Analysis.run a x old n with
    | .ok (a', outs) =>
      match a'.process (fun ch i => x ch (n * a.period + i)) (old n) with
      | .ok (a'', o) => .ok (a'', fun k => if k = n then o else outs k)
      | .throw e => .throw e
      | .ub => .ub
    | .throw e => .throw e
    | .ub => .ub

/-- Run the synthesis on a sequence of parameters (`X period frame channel`) for a number of periods; the result gives the
output blocks (`period`, `channel`, `sample`). -/
def Synthesis.run (s : Synthesis F) (X : Nat → Nat → Nat → Nat → F) (old : Nat → Nat → Nat → ℝ) :
    Nat → Outcome (Synthesis F × (Nat → Nat → Nat → ℝ))
  | 0 => .ok (s, old)
  | n + 1 =>
    match Synthesis.run s X old n with
    | .ok (s', outs) =>
      match s'.process (X n) (old n) with
      | .ok (s'', o) => .ok (s'', fun k => if k = n then o else outs k)
      | .throw e => .throw e
      | .ub => .ub
    | .throw e => .throw e
    | .ub => .ub

/-- The windowed and zero-padded signal section of frame `m`: it ends with the last sample of hop `m`. -/
def section' (window : List ℝ) (hop : Nat) (x : Nat → ℝ) (m : Nat) : Nat → ℝ := fun i =>
  if i < window.length then window.getD i 0 * at' x (((m + 1) * hop : Nat) - (window.length : ℤ) + i) else 0

/-- Overlap-add at time `t`: the sum of all frames `y m`, `m < M`, frame `m` starting at time `m * hop` and having `dft`
samples. -/
def overlapAdd (dft hop : Nat) (y : Nat → Nat → ℝ) (M t : Nat) : ℝ :=
  ∑ m ∈ range M, if m * hop ≤ t ∧ t - m * hop < dft then y m (t - m * hop) else 0

/-- What is assumed of the FFT library: the inverse transform undoes the forward transform up to the factors the library
reports. -/
structure Inverts (dft : Nat) (fft : Fft ℝ F) : Prop where
  fs : fft.fs ≠ 0
  is : fft.is ≠ 0
  inv_fwd : ∀ x, ∀ n < dft, fft.inv (fft.fwd x) n = fft.fs * fft.is * dft * x n

/-- Constant overlap-add: the window values a hop apart add up to `c`. -/
def Cola (window : List ℝ) (hop : Nat) (c : ℝ) : Prop :=
  ∀ i < hop, ∑ r ∈ range window.length, window.getD (r * hop + i) 0 = c

end Visr.TimeFreq
