import Verif.Cap.Model

/-!
# Specification of C58: compensated amplitude panning
-/

namespace Visr.Cap
open Visr Visr.Rotation

/-- Total of the gains. -/
def total (g : List ℝ) : ℝ := g.sum

/-- Energy of the gains. -/
def energy (g : List ℝ) : ℝ := (g.map fun x => x ^ 2).sum

/-- `d` is the direction of the vector `v`: a unit vector of which `v` is a positive multiple. -/
def IsRay (v d : Vec ℝ) : Prop := d.x * d.x + d.y * d.y + d.z * d.z = 1 ∧ ∃ r : ℝ, 0 < r ∧ v = Vec.scale r d

/-- Loudspeakers at directions `r` driven with gains `g` produce the interaural time difference of an image at direction
`image` at low frequencies: seen along the interaural axis, the gain-weighted mean of the loudspeaker directions agrees
with the image direction. -/
def Balanced (axis : Vec ℝ) (r : List (Vec ℝ)) (image : Vec ℝ) (g : List ℝ) : Prop :=
  ((g.zip r).map fun p => p.1 * axis.dot p.2).sum = total g * axis.dot image

/-- The gains `g` are optimal: balanced, and no balanced gains with the same total have less energy. -/
def Optimal (axis : Vec ℝ) (r : List (Vec ℝ)) (image : Vec ℝ) (g : List ℝ) : Prop :=
  Balanced axis r image g ∧
    ∀ h : List ℝ, h.length = r.length → Balanced axis r image h → total h = total g → energy g ≤ energy h

/-- Position (or direction of a plane wave, in degrees) and level of the direct sound of an object. Types which are not
supported have the level zero. -/
noncomputable def sourceOf (o : Obj) : Source × ℝ :=
  match o.kind with
  | .point pos => (⟨pos, false⟩, 1)
  | .pointDiffuse pos d => (⟨pos, false⟩, 1 - d)
  | .plane az el =>
    (⟨⟨Real.cos (az / 180 * Real.pi) * Real.cos (el / 180 * Real.pi),
      Real.sin (az / 180 * Real.pi) * Real.cos (el / 180 * Real.pi), Real.sin (el / 180 * Real.pi)⟩, true⟩, 1)
  | .other => (⟨⟨1, 0, 0⟩, false⟩, 0)

/-- The object which drives channel `c`: the last one whose only channel it is. -/
def driver (scene : List Obj) (c : Nat) : Option Obj := (scene.filter fun o => o.channels = [c]).getLast?

/-- Column `c` of the low-frequency matrix contains the gains `g` times `level`. -/
def LfColumn (m : Nat → Nat → Option ℝ) (c : Nat) (level : ℝ) (g : List (Option ℝ)) : Prop :=
  ∀ r (h : r < g.length), m r c = g[r].map fun x => level * x

/-- Column `c` of the high-frequency matrix contains the gains `g`, scaled to the energy `level ^ 2` (unless they are
all below the machine precision). -/
def HfColumn (eps : ℝ) (m : Nat → Nat → Option ℝ) (c : Nat) (level : ℝ) (g : List ℝ) : Prop :=
  ∃ k : ℝ, 0 < k ∧ (∀ r (h : r < g.length), m r c = some (level * (k * g[r]))) ∧
    (eps ≤ Real.sqrt (energy g) → energy (g.map fun x => level * (k * x)) = level ^ 2)

/-- The last listener position and orientation of a history. -/
def latest : List Op → Option (Vec ℝ × ℝ × ℝ × ℝ)
  | [] => none
  | .listener p y pi r :: ops => (latest ops).orElse fun _ => some (p, y, pi, r)
  | _ :: ops => latest ops

/-- The low-frequency panner is set for the given listener: by default, for one at the origin. -/
def SetFor (cap : Cap) : Option (Vec ℝ × ℝ × ℝ × ℝ) → Prop
  | none => cap.listener = ⟨0, 0, 0⟩ ∧ cap.axis = ⟨1, 0, 0⟩
  | some (p, yaw, pitch, roll) => cap.listener = p ∧ cap.axis = auralAxis yaw pitch roll

end Visr.Cap
