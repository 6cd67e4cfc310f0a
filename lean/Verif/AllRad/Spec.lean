import Verif.AllRad.Model

/-!
# Specification of C60 and C61: HOA decoding, matrix product
-/

namespace Visr.AllRad
open Visr Visr.Rotation

/-- `g` are the gains with which a VBAP panner for the loudspeaker array, made for a listener at `p`, plays a point source
at `pos`. -/
def Panned (eps : ℝ) (real : LspArray) (p pos : Vec ℝ) (g : List ℝ) : Prop :=
  ∃ v, Vbap.Vbap.create eps real.positions real.regular real.triplets real.is2D real.rerouting p = .ok v ∧
    Vbap.gains eps v pos false = .ok g

/-- What was set last in a history, `init` if it was never set. -/
def lastSet {β : Type} (f : Op → Option β) (init : β) (ops : List Op) : β :=
  (ops.reverse.findSome? f).getD init

/-- The scene set by an event. -/
def Op.scene? : Op → Option (List Obj)
  | .scene o => some o
  | _ => none

/-- The listener position set by an event. -/
def Op.listener? : Op → Option (Vec ℝ)
  | .listener p => some p
  | _ => none

/-- The input gains set by an event. -/
def Op.gains? : Op → Option (Nat → Nat → ℝ)
  | .gains m => some m
  | _ => none

/-- The channels of the HOA sources of a scene, in order. -/
def hoaChannels : List Obj → List Nat
  | [] => []
  | .hoa _ chs :: os => chs ++ hoaChannels os
  | .other :: os => hoaChannels os

/-- The scene suits a decoder with `rows` harmonics and `n` object channels: every HOA source has as many channels as its
order requires, not more than the decoder has harmonics, and its channels exist. -/
def Suits (rows n : Nat) (scene : List Obj) : Prop :=
  ∀ order chs, Obj.hoa order chs ∈ scene →
    chs.length = (order.toNat + 1) ^ 2 ∧ (order.toNat + 1) ^ 2 ≤ rows ∧ ∀ ch ∈ chs, ch < n

/-- The panner for a listener at `p` finds gains for all positions. -/
def Pans (eps : ℝ) (real : LspArray) (p : Vec ℝ) (positions : List (Vec ℝ)) : Prop :=
  ∃ v, Vbap.Vbap.create eps real.positions real.regular real.triplets real.is2D real.rerouting p = .ok v ∧
    ∀ pos ∈ positions, ∃ g, Vbap.gains eps v pos false = .ok g

end Visr.AllRad
