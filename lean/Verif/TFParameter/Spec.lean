import Verif.TFParameter.Model
import Verif.Efl.SpecMatrix

/-!
# Specification of time-frequency parameters

A three-dimensional table without storage, strides or padding.
-/

namespace Visr.TFParameter
open Visr Visr.Efl

variable {α : Type*}

/-- An abstract parameter. Only elements inside the dimensions matter. -/
structure Cube (α : Type*) where
  frames : Nat
  channels : Nat
  bins : Nat
  elem : Nat → Nat → Nat → α

/-- Effect of an operation: every operation changes exactly the elements it names. -/
noncomputable def cubeStep [Zero α] (s : Nat → Option (Cube α)) (op : Op α) :
    (Nat → Option (Cube α)) × Outcome (Result α) :=
  open Classical in
  match op with
  | .empty i align =>
    if LegalAlign align then (setObj s i ⟨0, 0, 0, fun _ _ _ => 0⟩, .ok .nothing) else (s, .throw .invalidArgument)
  | .create i bins channels frames align =>
    if LegalAlign align then (setObj s i ⟨frames, channels, bins, fun _ _ _ => 0⟩, .ok .nothing)
    else (s, .throw .invalidArgument)
  | .copy i j => match s j with
    | some rhs => (setObj s i rhs, .ok .nothing)
    | none => (s, .ok .nothing)
  | .assign i j => match s i, s j with
    | some _, some rhs => (setObj s i rhs, .ok .nothing)
    | _, _ => (s, .ok .nothing)
  | .resize i bins channels frames => match s i with
    | some _ => (setObj s i ⟨frames, channels, bins, fun _ _ _ => 0⟩, .ok .nothing)
    | none => (s, .ok .nothing)
  | .read i f c b => match s i with
    | some p => (s, .ok (.elem (p.elem f c b)))
    | none => (s, .ok .nothing)
  | .write i f c b v => match s i with
    | some p => (setObj s i { p with elem := fun f' c' b' => if f' = f ∧ c' = c ∧ b' = b then v else p.elem f' c' b' },
        .ok .nothing)
    | none => (s, .ok .nothing)
  | .numberOfFrames i => match s i with
    | some p => (s, .ok (.number p.frames))
    | none => (s, .ok .nothing)
  | .numberOfChannels i => match s i with
    | some p => (s, .ok (.number p.channels))
    | none => (s, .ok .nothing)
  | .numberOfDftBins i => match s i with
    | some p => (s, .ok (.number p.bins))
    | none => (s, .ok .nothing)

/-- Preconditions the unchecked functions leave to the caller: indices inside the dimensions, and at least one
channel for `numberOfFrames()`; alignments are machine numbers. -/
def Contract (s : Nat → Option (Cube α)) : Op α → Prop
  | .empty _ align => align < 2 ^ 64
  | .create _ _ _ _ align => align < 2 ^ 64
  | .read i f c b => ∀ p, s i = some p → f < p.frames ∧ c < p.channels ∧ b < p.bins
  | .write i f c b _ => ∀ p, s i = some p → f < p.frames ∧ c < p.channels ∧ b < p.bins
  | .numberOfFrames i => ∀ p, s i = some p → 0 < p.channels
  | _ => True

/-- Every operation of a program respects its contract. -/
def Contracts [Zero α] (s : Nat → Option (Cube α)) : List (Op α) → Prop
  | [] => True
  | op :: ops => Contract s op ∧ Contracts (cubeStep s op).1 ops

end Visr.TFParameter
