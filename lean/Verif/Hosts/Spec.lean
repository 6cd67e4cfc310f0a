import Verif.Hosts.Model

/-!
# What the wrappers are for

Signals are functions of the channel and the time.
-/

namespace Visr.Hosts

/-- The matrix data of a signal: column `t` holds the samples of all channels at time `t`. -/
def Holds (data : List β) (channels length : Nat) (x : Nat → Nat → β) : Prop :=
  data.length = channels * length ∧ ∀ ch < channels, ∀ t < length, data[t * channels + ch]? = some (x ch t)

/-- Block number `b` of a signal. -/
def block (channels period : Nat) (x : Nat → Nat → α) (b : Nat) : List (List α) :=
  (List.range channels).map fun ch => (List.range period).map fun i => x ch (b * period + i)

/-- The flow is executed for `n` consecutive blocks of a signal, beginning with block `b`; `ys` are its outputs. -/
inductive Executed (F : Flow σ α) (x : Nat → Nat → α) : Nat → Nat → σ → σ → List (Nat → Nat → α) → Prop
  | done (b s) : Executed F x 0 b s s []
  | step (n b s s' s'' y r ys) : F.proc s (block F.captures F.period x b) = .ok (s', y, r) →
      Executed F x n (b + 1) s' s'' ys → Executed F x (n + 1) b s s'' (y :: ys)

end Visr.Hosts
