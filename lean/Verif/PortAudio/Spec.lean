import Verif.PortAudio.Model

/-!
# What users of the PortAudio interface rely on

Samples of a device buffer, the processing function in force after a history of
operations, and the device meant by a name.  Only the data types of the model are used.
-/

namespace Visr.PortAudio
open Visr

variable {α F U : Type}

/-- Sample `t` of channel `c` in a device buffer of `n` channels: in an interleaved buffer
the samples of all channels at one time are adjacent. -/
def sample (n : Nat) : Buf α → Nat → Nat → Option α
  | .flat d, c, t => d[t * n + c]?
  | .planar d, c, t => d[c]?.bind fun ch => ch[t]?

/-- A device buffer of `n` channels of `period` samples in the requested layout. -/
inductive Fits (n period : Nat) : Bool → Buf α → Prop
  | flat (d : List α) : d.length = n * period → Fits n period true (.flat d)
  | planar (d : List (List α)) : d.length = n → (∀ ch ∈ d, ch.length = period) → Fits n period false (.planar d)

/-- A matrix of `n` channels of `period` samples. -/
def Shape (n period : Nat) (m : List (List α)) : Prop := m.length = n ∧ ∀ ch ∈ m, ch.length = period

/-- The channels `m` hold the samples of the buffer, in the order of the channels. -/
def Holds (n period : Nat) (b : Buf α) (m : List (List α)) : Prop :=
  Shape n period m ∧ ∀ c t, c < n → t < period → (m[c]?.bind fun ch => ch[t]?) = sample n b c t

/-- The function and its user data registered last and not unregistered since then. -/
def Registered (h : List (Op α F U)) (f : F) (u : U) : Prop :=
  ∃ before after, h = before ++ .register f u :: after ∧
    ∀ op ∈ after, op ≠ .unregister f ∧ ∀ f' u', op ≠ .register f' u'

/-- Processing functions fill exactly the channels they are given. -/
def Proper {σ : Type} (nCap nPlay period : Nat) (proc : Proc α F U σ) : Prop :=
  ∀ f u w caps plays, Shape nCap period caps → Shape nPlay period plays →
    Shape nPlay period (proc f u w caps plays).2.1

/-- The block exchanged with the device when the function `f` is in force: it is called once
with the captured samples; the device gets the samples it produced.  If it reports a failure
the stream ends and the output is left as it was. -/
def Exchanged {σ : Type} (proc : Proc α F U σ) (f : F) (u : U) (nCap nPlay period : Nat) (inter : Bool)
    (w : σ) (input output : Buf α) (w' : σ) (r : Ret α) : Prop :=
  ∃ caps plays, Holds nCap period input caps ∧ Shape nPlay period plays ∧
    w' = (proc f u w caps plays).1 ∧
    match (proc f u w caps plays).2.2 with
    | none => ∃ o, r = .continue o ∧ Fits nPlay period inter o ∧ Holds nPlay period o (proc f u w caps plays).2.1
    | some .cString => r = .escapes .cString
    | some _ => r = .abort output

/-- All blocks passed by the library have the requested layout. -/
def BlocksFit (nCap nPlay period : Nat) (inter : Bool) (h : List (Op α F U)) : Prop :=
  ∀ i o, .block i o ∈ h → Fits nCap period inter i ∧ Fits nPlay period inter o

/-- A successful `stop()` is among the operations and results. -/
def Stopped (h : List (Op α F U)) (rs : List (Result α)) : Prop :=
  ∃ (k : Nat) (a b : Bool), h[k]? = some (.stop a b) ∧ rs[k]? = some .done

/-- Device `i` is the one meant by a nonempty name: it has this name. -/
def Named (devices : List (Nat × Device)) (name : List Char) (i : Nat) : Prop :=
  ∃ d, (i, d) ∈ devices ∧ d.name = name

end Visr.PortAudio
