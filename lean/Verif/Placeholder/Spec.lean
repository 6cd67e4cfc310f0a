import Mathlib.Tactic.TypeStar

/-!
# Specification of placeholder resolution

`sends s x` says that some connection goes from the port `s` to the port `x`.
-/

namespace Visr.Placeholder

variable {X : Type*}

/-- Following the connections backwards from `x`, through `n` placeholders, leads to the real sender `s`. -/
inductive ChainN (ph : X → Bool) (sends : X → X → Prop) : Nat → X → X → Prop
  | direct {s x : X} : sends s x → ph s = false → ChainN ph sends 0 x s
  | through {n : Nat} {p x s : X} : sends p x → ph p = true → ChainN ph sends n p s → ChainN ph sends (n + 1) x s

/-- Following the connections backwards from `x` leads to the real sender `s`. -/
def Chain (ph : X → Bool) (sends : X → X → Prop) (x s : X) : Prop := ∃ n, ChainN ph sends n x s

/-- Every port has at most one sender. -/
def UniqueSenders (sends : X → X → Prop) : Prop := ∀ s s' x, sends s x → sends s' x → s = s'

end Visr.Placeholder
