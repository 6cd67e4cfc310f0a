import Verif.CircularBuffer.Model
import Mathlib.Algebra.Notation.Defs

/-! # Specification of the circular buffer (C06) -/

namespace Visr.CircularBuffer
open Visr

/-- One block handed to the buffer: `n` samples for every channel, through `write` or through the write pointers. -/
structure Block (α : Type u) where
  n : Nat
  data : Nat → Nat → α
  direct : Bool

/-- The whole signal of one channel handed to the buffer so far, oldest sample first. -/
def signal (ch : Nat) : List (Block α) → List α
  | [] => []
  | b :: bs => (List.range b.n).map (b.data ch) ++ signal ch bs

/-- The sample that was written `d` sample periods ago (`d = 1`: the latest); zero before the first write. -/
def past [Zero α] (s : List α) (d : Nat) : α := if d ≤ s.length then s.getD (s.length - d) 0 else 0

/-- Feed all blocks into the buffer. -/
def feed (b : CB α) : List (Block α) → Outcome (CB α)
  | [] => .ok b
  | k :: ks =>
    match (if k.direct then b.directWrite k.data k.n else b.write k.data b.channels k.n) with
    | .ok b' => feed b' ks
    | .throw e => .throw e
    | .ub => .ub

end Visr.CircularBuffer
