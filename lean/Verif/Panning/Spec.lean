import Verif.Panning.Model

/-!
# Specification of C57: panning gains of a scene
-/

namespace Visr.Panning
open Visr Visr.Rotation

/-- How the signal of a channel is to be reproduced: on the loudspeakers with the given labels, from a direction, or
diffusely from everywhere. The number is the diffuseness. -/
inductive Source where
  | labels (ls : List String) (diffuseness : ℝ)
  | direction (pos : Vec ℝ) (planeWave : Bool) (diffuseness : ℝ)
  | everywhere

/-- The channels used by an object, with their sources. -/
noncomputable def sources (o : Obj) : List (Nat × Source) :=
  match o.kind, o.channels with
  | .channel d outputs, chs => (chs.zip outputs).map fun p => (p.1, .labels p.2 d)
  | .diffuse, [c] => [(c, .everywhere)]
  | .plane az el dist, [c] => [(c, .direction (spherical2cartesian az el dist) true 0)]
  | .point pos d, [c] => [(c, .direction pos false (d.getD 0))]
  | _, _ => []

/-- The sources of a scene, in the order of the objects. -/
noncomputable def sceneSources (scene : List Obj) : List (Nat × Source) := scene.flatMap sources

/-- Sources that are not purely diffuse. -/
def Source.direct : Source → Bool
  | .everywhere => false
  | _ => true

/-- Diffuseness of a source. -/
def Source.diffuseness : Source → ℝ
  | .labels _ d => d
  | .direction _ _ d => d
  | .everywhere => 1

/-- `g` are the relative loudspeaker gains of the direct sound of a source. -/
def DirectGains (cfg : Cfg) (v : Vbap.Vbap) : Source → List ℝ → Prop
  | .labels ls _, g => g.length = cfg.regular ∧
      ∀ i (hi : i < g.length), g[i] = if ∃ l ∈ ls, findLabel cfg l = some i then 1 else 0
  | .direction pos pw _, g => Vbap.gainsUnNormalised v pos pw = .ok g
  | .everywhere, g => g = List.replicate cfg.regular 1

/-- `g` are the relative gains at high frequencies (vector base intensity panning): the roots of the panning gains,
which must not be negative. -/
def HfGains (cfg : Cfg) (v : Vbap.Vbap) : Source → List ℝ → Prop
  | .direction pos pw _, h => ∃ g, Vbap.gainsUnNormalised v pos pw = .ok g ∧ (∀ x ∈ g, 0 ≤ x) ∧ h = g.map Real.sqrt
  | s, h => DirectGains cfg v s h

/-- `g` are the relative gains of the diffuse sound: for a source with a direction, equal gains for all loudspeakers, or
none if the diffuseness is below the machine precision. -/
def DiffuseGains (cfg : Cfg) (v : Vbap.Vbap) : Source → List ℝ → Prop
  | .direction _ _ d, g => g = List.replicate cfg.regular (if d ≥ cfg.eps then 1 else 0)
  | s, g => DirectGains cfg v s g

/-- The scene can be rendered: all channels exist, channel objects have labels for all channels, all labels name a
loudspeaker, and the panner finds gains for all directions. -/
def Renderable (cfg : Cfg) (v : Vbap.Vbap) (scene : List Obj) : Prop :=
  (∀ o ∈ scene, ∀ d outputs, o.kind = .channel d outputs → outputs.length = o.channels.length) ∧
  ∀ p ∈ sceneSources scene, p.1 < cfg.objects ∧
    match p.2 with
    | .labels ls _ => ∀ l ∈ ls, (findLabel cfg l).isSome
    | .direction pos pw _ => ∃ g, Vbap.gainsUnNormalised v pos pw = .ok g
    | .everywhere => True

/-- Total gain of a vector of loudspeaker gains: sum of magnitudes or root of the sum of squares. -/
noncomputable def size : Norm → List ℝ → ℝ
  | .amplitude, l => (l.map fun x => |x|).sum
  | .energy, l => Real.sqrt (l.map fun x => x ^ 2).sum

/-- Column `c` of the matrix are the gains `g`, scaled to the total gain `target` (unless they are all below the machine
precision). -/
def Scaled (eps : ℝ) (mode : Norm) (target : ℝ) (g : List ℝ) (m : Mat) (c : Nat) : Prop :=
  ∃ k : ℝ, 0 < k ∧ (∀ r (hr : r < g.length), m r c = some (target * (k * g[r]))) ∧
    (eps ≤ size mode g → size mode (g.map fun x => target * (k * x)) = |target|)

/-- Configurations made by the constructor (`panning_calculator.cpp:46-114`): strides are at least the number of columns,
labels name regular loudspeakers, the panner is made for the same array. -/
structure Proper (cfg : Cfg) (v : Vbap.Vbap) : Prop where
  eps_pos : 0 < cfg.eps
  stride : cfg.objects ≤ cfg.stride
  labels : ∀ e ∈ cfg.lookup, e.2 < cfg.regular
  regular : v.regular = cfg.regular

/-- The panner used by the next call of `process()`. -/
noncomputable def currentPanner (cfg : Cfg) (s : State) : Outcome Vbap.Vbap :=
  match s.listener with
  | none => .ok s.vbap
  | some p => s.vbap.setListener cfg.eps p

end Visr.Panning
