import Verif.Biquad.Model

/-!
# Specification of IIR filtering

A section is a difference equation over the whole stream; there are no blocks and no filter states.
-/

namespace Visr.Biquad
open Visr

variable {K : Type*} [Field K]

/-- Output of a second-order section whose coefficients at time `n` are `c n`:
`y[n] = b0 x[n] + (b1 x[n-1] - a1 y[n-1]) + (b2 x[n-2] - a2 y[n-2])`, where the terms of an earlier sample use the
coefficients in force at that sample, and samples before time 0 are zero. -/
def iir (c : Nat → Coef K) (x : Nat → K) : Nat → K
  | 0 => (c 0).b0 * x 0
  | 1 => (c 1).b0 * x 1 + ((c 0).b1 * x 0 - (c 0).a1 * iir c x 0)
  | n + 2 => (c (n + 2)).b0 * x (n + 2) + ((c (n + 1)).b1 * x (n + 1) - (c (n + 1)).a1 * iir c x (n + 1))
      + ((c n).b2 * x n - (c n).a2 * iir c x n)

/-- A cascade of sections. -/
def cascade (c : Nat → Nat → Coef K) (x : Nat → K) : Nat → Nat → K
  | 0 => x
  | k + 1 => iir (fun n => c n k) (cascade c x k)

/-- A coefficient table: channel, section. -/
abbrev Tab (K : Type*) := Nat → Nat → Coef K

/-- Change of the coefficient table by a call, `none` if the call is rejected. -/
def tabStep (channels sections : Nat) (t : Tab K) : Op K → Option (Tab K)
  | .setCoefficients ch k c =>
    if ch < channels ∧ k < sections then some (fun ch' k' => if ch' = ch ∧ k' = k then c else t ch' k') else none
  | .setChannel ch cs =>
    if ch < channels ∧ cs.length = sections then
      some (fun ch' k' => if ch' = ch then (cs[k']?).getD (t ch' k') else t ch' k')
    else none
  | .setMatrix m =>
    if m.length = channels ∧ ∀ r ∈ m, r.length = sections then
      some (fun ch k => ((m[ch]?.bind fun r => r[k]?)).getD (t ch k))
    else none
  | .process none _ => some t
  | .process (some m) _ =>
    if m.length = channels ∧ ∀ r ∈ m, r.length = sections then
      some (fun ch k => ((m[ch]?.bind fun r => r[k]?)).getD (t ch k))
    else none

/-- What has happened so far: the coefficient table in force, and for each channel the samples processed so far, each
with the coefficients of the sections in force when it was processed. -/
structure Log (K : Type*) where
  tab : Tab K
  past : Nat → List (K × (Nat → Coef K))

/-- Update of the log by a call. -/
def logStep (channels sections : Nat) (l : Log K) (op : Op K) : Log K :=
  match tabStep channels sections l.tab op with
  | none => l
  | some t =>
    match op with
    | .process _ audio => ⟨t, fun ch => l.past ch ++ (audio ch).map fun x => (x, t ch)⟩
    | _ => ⟨t, l.past⟩

/-- Input stream of a channel. -/
def Log.input (l : Log K) (ch : Nat) (n : Nat) : K := ((l.past ch)[n]?.map (·.1)).getD 0

/-- Coefficients of section `k` of a channel in force at time `n`. -/
def Log.coef (l : Log K) (ch : Nat) (n k : Nat) : Coef K := ((l.past ch)[n]?.map fun p => p.2 k).getD Coef.flat

/-- Expected output stream of a channel. -/
def Log.output (sections : Nat) (l : Log K) (ch n : Nat) : K := cascade (l.coef ch) (l.input ch) sections n

/-- Matrices whose rows have equal lengths. `BiquadCoefficientMatrix` keeps its rows equally long unless
the caller resizes a single row through the reference returned by `operator[]`. -/
def Rectangular (m : List (List (Coef K))) : Prop := ∀ r ∈ m, ∀ r' ∈ m, r.length = r'.length

/-- Only rectangular coefficient matrices are passed. -/
def OpOK : Op K → Prop
  | .setMatrix m => Rectangular m
  | .process (some m) _ => Rectangular m
  | _ => True

/-- Output expected from a call. -/
def expected (channels sections : Nat) (l : Log K) (op : Op K) : Outcome (List (List K)) :=
  match tabStep channels sections l.tab op with
  | none => .throw .invalidArgument
  | some _ =>
    match op with
    | .process _ audio => .ok ((List.range channels).map fun ch => (List.range (audio ch).length).map fun i =>
        (logStep channels sections l op).output sections ch ((l.past ch).length + i))
    | _ => .ok []

end Visr.Biquad
