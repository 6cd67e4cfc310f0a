import Verif.FlexibleBuffer.Model

/-! # Specification for the flexible buffer wrapper (C07) -/

namespace Visr.FlexibleBuffer
open Visr

/-- A flow that never throws, given by its transition function. -/
def totalFlow (captureCh playbackCh period : Nat) (g : σ → List (List α) → σ × (Nat → Nat → α)) : Flow σ α :=
  ⟨captureCh, playbackCh, period, fun s b => ((g s b).1, .ok (g s b).2)⟩

/-- The `k`-th period-sized block of the input signals `X`. -/
def block (C p : Nat) (X : Nat → Nat → α) (k : Nat) : List (List α) :=
  (List.range C).map fun ch => (List.range p).map fun i => X ch (k * p + i)

/-- State of the flow after it has been run directly on the first `k` blocks. -/
def stateAfter (C p : Nat) (g : σ → List (List α) → σ × (Nat → Nat → α)) (s : σ) (X : Nat → Nat → α) : Nat → σ
  | 0 => s
  | k + 1 => (g (stateAfter C p g s X k) (block C p X k)).1

/-- Output of the flow for block `k`. -/
def blockOut (C p : Nat) (g : σ → List (List α) → σ × (Nat → Nat → α)) (s : σ) (X : Nat → Nat → α) (k : Nat) :
    Nat → Nat → α :=
  (g (stateAfter C p g s X k) (block C p X k)).2

/-- The expected output signal: one period of zeros, then the outputs of the flow, block after block. -/
def expected [Zero α] (C p : Nat) (g : σ → List (List α) → σ × (Nat → Nat → α)) (s : σ) (X : Nat → Nat → α)
    (ch t : Nat) : α :=
  if t < p then 0 else blockOut C p g s X (t / p - 1) ch (t % p)

/-- Calls `process` for all `(numFrames, playback memory)` pairs in turn, on consecutive sections of the input signals `X`
starting at time `T`; returns the playback memory after each call. -/
def runCalls (F : Flow σ α) (X : Nat → Nat → α) :
    Wrapper σ α → Nat → List (Nat × (Nat → Nat → α)) → Wrapper σ α × Outcome (List (Nat → Nat → α))
  | w, _, [] => (w, .ok [])
  | w, T, (n, play) :: cs =>
    let r := process F w (fun ch i => X ch (T + i)) play n
    match r.2 with
    | .ok m =>
      let q := runCalls F X r.1 (T + n) cs
      match q.2 with
      | .ok ms => (q.1, .ok (m :: ms))
      | .throw e => (q.1, .throw e)
      | .ub => (q.1, .ub)
    | .throw e => (r.1, .throw e)
    | .ub => (r.1, .ub)

/-- Number of samples handed over before call `j`. -/
def offset (calls : List (Nat × β)) (j : Nat) : Nat := ((calls.take j).map Prod.fst).sum

end Visr.FlexibleBuffer
