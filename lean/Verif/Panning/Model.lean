import Verif.Vbap.Model
import Verif.ObjectVector.Model
import Verif.Run
import Mathlib.Analysis.SpecialFunctions.Trigonometric.Basic

/-!
# Panning gains of scenes

Models `/repo/src/librcl/panning_calculator.cpp` (`rcl::PanningCalculator`) and
`/repo/src/librcl/diffusion_gain_calculator.cpp` (`rcl::DiffusionGainCalculator`) over the real numbers.
A gain is an `Option ℝ`, where `none` is NaN (`std::sqrt` of a negative gain).
The panner is the model of `panning::VBAP` (`Verif.Vbap.Model`).
Messages (`status( Warning, … )`, `std::cerr`) are not modelled.
-/

namespace Visr.Panning
open Visr Visr.Rotation

/-- `PanningCalculator::Normalisation` after the defaults are resolved (`panning_calculator.hpp:63-68`). -/
inductive Norm where
  | amplitude
  | energy
  deriving DecidableEq

/-- `lfNormalisation` resolved in the constructor (`panning_calculator.cpp:66-67`); `none` is `Normalisation::Default`. -/
def resolveLf (hf : Bool) : Option Norm → Norm
  | none => if hf then .amplitude else .energy
  | some n => n

/-- `hfNormalisation` and `diffuseNormalisation` resolved in the constructor (`panning_calculator.cpp:68-69`). -/
def resolveOther : Option Norm → Norm
  | none => .energy
  | some n => n

/-- Constants of the component (`panning_calculator.hpp:185-250`): machine epsilon, number of objects, stride of the gain
matrices, number of regular loudspeakers, `mLabelLookup`, which outputs exist, and the normalisations. -/
structure Cfg where
  eps : ℝ
  objects : Nat
  stride : Nat
  regular : Nat
  lookup : List (String × Nat)
  lf : Bool
  hf : Bool
  diffuse : Bool
  lfNorm : Norm
  hfNorm : Norm
  diffuseNorm : Norm

/-- What the component distinguishes by `dynamic_cast`. `point` is `PointSource` and its derived classes; the second
argument is the diffuseness of `PointSourceWithDiffuseness` and its derived classes. -/
inductive Kind where
  | channel (diffuseness : ℝ) (outputs : List (List String))
  | diffuse
  | plane (az el dist : ℝ)
  | point (pos : Vec ℝ) (diffuseness : Option ℝ)
  | other

/-- An object: its channel indices and its kind. -/
structure Obj where
  channels : List Nat
  kind : Kind

/-- Elements of a matrix by storage row and position within the row. -/
abbrev Mat := Nat → Nat → Option ℝ

/-- The matrices of the three outputs. -/
structure Gains where
  lf : Mat
  hf : Mat
  diffuse : Mat

/-- The norm calculated by `normalise()` (`panning_calculator.cpp:160-174`). -/
noncomputable def normOf : Norm → List (Option ℝ) → Option ℝ
  | .amplitude, l => l.foldl (fun acc v => acc.bind fun a => v.map fun x => a + |x|) (some 0)
  | .energy, l => (l.foldl (fun acc v => acc.bind fun a => v.map fun x => a + x * x) (some 0)).map Real.sqrt

/-- `normalise()` (`panning_calculator.cpp:154-181`): the column to be written. `std::max( NaN, epsilon )` is NaN. -/
noncomputable def normalise (eps : ℝ) (mode : Norm) (target : ℝ) (l : List (Option ℝ)) : List (Option ℝ) :=
  match normOf mode l with
  | none => l.map fun _ => none
  | some n => l.map fun v => v.map fun x => target / max n eps * x

/-- Writing a column of a gain matrix through `data() + c` with the stride of the matrix
(`panning_calculator.cpp:177-180`): the column index is not checked. -/
def setColumn (cfg : Cfg) (m : Mat) (c : Nat) (col : List (Option ℝ)) : Outcome Mat :=
  if cfg.regular = 0 ∨ c < cfg.stride then
    .ok fun r k => if k = c ∧ r < cfg.regular then col.getD r none else m r k
  else .ub

/-- The three calls of `normalise()` for one channel (`panning_calculator.cpp:240-254`, `:298-317`), where `direct`,
`hf` and `diffuse` are the vectors to be normalised. Only existing outputs are written. -/
noncomputable def setColumns (cfg : Cfg) (g : Gains) (c : Nat) (ratio : ℝ) (direct hf diffuse : List (Option ℝ)) :
    Outcome Gains := do
  let lf' ← if cfg.lf then setColumn cfg g.lf c (normalise cfg.eps cfg.lfNorm (1 - ratio) direct) else .ok g.lf
  let hf' ← if cfg.hf then setColumn cfg g.hf c (normalise cfg.eps cfg.hfNorm (1 - ratio) hf) else .ok g.hf
  let d' ← if cfg.diffuse then setColumn cfg g.diffuse c (normalise cfg.eps cfg.diffuseNorm ratio diffuse)
    else .ok g.diffuse
  .ok ⟨lf', hf', d'⟩

/-- `std::map::find` in `mLabelLookup`. -/
def findLabel (cfg : Cfg) (l : String) : Option Nat := (cfg.lookup.find? fun e => e.1 == l).map fun e => e.2

/-- The loop over the labels of a channel (`panning_calculator.cpp:229-238`): for an unknown label the end iterator is
dereferenced. -/
def labelGains (cfg : Cfg) : List String → List (Option ℝ) → Outcome (List (Option ℝ))
  | [], g => .ok g
  | l :: ls, g =>
    match findLabel cfg l with
    | none => .ub
    | some i => labelGains cfg ls (g.set i (some 1))

/-- A vector of `mNumberOfRegularLoudspeakers` equal elements. -/
def const (cfg : Cfg) (x : ℝ) : List (Option ℝ) := List.replicate cfg.regular (some x)

/-- Run a function for all elements of a list, stopping at the first exception. -/
def forEach {α σ : Type} (f : σ → α → σ × Outcome Unit) : List α → σ → σ × Outcome Unit
  | [], s => (s, .ok ())
  | a :: as, s =>
    match f s a with
    | (s', .ok ()) => forEach f as s'
    | r => r

/-- Keep the old gains unless the calculation succeeds. -/
def attempt (g : Gains) : Outcome Gains → Gains × Outcome Unit
  | .ok g' => (g', .ok ())
  | .throw e => (g, .throw e)
  | .ub => (g, .ub)

/-- One channel of a channel object (`panning_calculator.cpp:219-255`). -/
noncomputable def channelStep (cfg : Cfg) (d : ℝ) (channels : List Nat) (outputs : List (List String)) (g : Gains)
    (chIdx : Nat) : Gains × Outcome Unit :=
  attempt g (do
    let c ← (match channels[chIdx]? with
      | some c => .ok c
      | none => .throw .invalidArgument : Outcome Nat)
    let labels ← (match outputs[chIdx]? with
      | some l => .ok l
      | none => .throw .outOfRange : Outcome (List String))
    let tmp ← labelGains cfg labels (const cfg 0)
    setColumns cfg g c d tmp tmp tmp)

/-- `efl::spherical2cartesian` (`cartesian_spherical_conversion.hpp:32-38`), angles in radian. -/
noncomputable def spherical2cartesian (az el radius : ℝ) : Vec ℝ :=
  ⟨Real.cos az * Real.cos el * radius, Real.sin az * Real.cos el * radius, Real.sin el * radius⟩

/-- `std::sqrt` of a gain. -/
noncomputable def sqrtGain (x : ℝ) : Option ℝ := if x < 0 then none else some (Real.sqrt x)

/-- The part for plane waves and point sources (`panning_calculator.cpp:272-317`) for the position passed to the panner:
`tmp` are the gains it returns. -/
noncomputable def directional (cfg : Cfg) (v : Vbap.Vbap) (g : Gains) (c : Nat) (pos : Vec ℝ) (planeWave : Bool)
    (ratio : ℝ) : Outcome Gains := do
  let tmp ← Vbap.gainsUnNormalised v pos planeWave
  setColumns cfg g c ratio (tmp.map some) (tmp.map sqrtGain) (const cfg (if ratio ≥ cfg.eps then 1 else 0))

/-- The loop body for one object (`panning_calculator.cpp:209-319`). -/
noncomputable def objectStep (cfg : Cfg) (v : Vbap.Vbap) (g : Gains) (o : Obj) : Gains × Outcome Unit :=
  match o.kind with
  | .channel d outputs => forEach (channelStep cfg d o.channels outputs) (List.range o.channels.length) g
  | k =>
    match o.channels with
    | [c] =>
      match k with
      | .diffuse =>
        if cfg.diffuse then
          attempt g (do
            let d' ← setColumn cfg g.diffuse c (normalise cfg.eps cfg.diffuseNorm 1 (const cfg 1))
            .ok { g with diffuse := d' })
        else (g, .ok ())
      | .plane az el dist => attempt g (directional cfg v g c (spherical2cartesian az el dist) true 0)
      | .point pos d => attempt g (directional cfg v g c pos false (d.getD 0))
      | _ => (g, .ok ())
    | _ => (g, .ok ())

/-- Matrices filled with zeros. -/
def Gains.zero : Gains := ⟨fun _ _ => some 0, fun _ _ => some 0, fun _ _ => some 0⟩

/-- State of the component: the panner, the object vector and the listener position with their changed flags
(`none`: not changed), and the shared output matrices. -/
structure State where
  vbap : Vbap.Vbap
  scene : List Obj
  sceneChanged : Bool
  listener : Option (Vec ℝ)
  gains : Gains

/-- What happens to the component. -/
inductive Op where
  /-- a new object vector arrives -/
  | scene (objects : List Obj)
  /-- a new listener position arrives -/
  | listener (pos : Vec ℝ)
  /-- `process()` is called -/
  | process

/-- One event; `process()` is `panning_calculator.cpp:186-474`. -/
noncomputable def step (cfg : Cfg) (s : State) : Op → State × Outcome Unit
  | .scene objects => ({ s with scene := objects, sceneChanged := true }, .ok ())
  | .listener pos => ({ s with listener := some pos }, .ok ())
  | .process =>
    match (match s.listener with
      | none => .ok s.vbap
      | some p => s.vbap.setListener cfg.eps p : Outcome Vbap.Vbap) with
    | .throw e => (s, .throw e)
    | .ub => (s, .ub)
    | .ok v =>
      if s.sceneChanged then
        match forEach (objectStep cfg v) s.scene Gains.zero with
        | (g, .ok ()) => ({ s with vbap := v, listener := none, gains := g, sceneChanged := false }, .ok ())
        | (g, e) => ({ s with vbap := v, listener := none, gains := g }, e)
      else ({ s with vbap := v, listener := none }, .ok ())

/-! ### `rcl::DiffusionGainCalculator` -/

/-- An object as read by `DiffusionGainCalculator`: channels, type, diffuseness. -/
structure DObj where
  channels : List Nat
  typ : ObjectVector.ObjType
  diffuseness : ℝ

/-- The `switch` over `type()` (`diffusion_gain_calculator.cpp:71-87`). -/
def diffusionLevel (o : DObj) : ℝ :=
  match o.typ with
  | .diffuse => 1
  | .pointDiffuse => o.diffuseness
  | _ => 0

/-- The loop over the objects (`diffusion_gain_calculator.cpp:54-88`): channels out of range are skipped. -/
def diffusionLoop (n : Nat) : List DObj → (Nat → ℝ) → Nat → ℝ
  | [], g => g
  | o :: os, g =>
    match o.channels with
    | [c] => if c ≥ n then diffusionLoop n os g else diffusionLoop n os (Function.update g c (diffusionLevel o))
    | _ => diffusionLoop n os g

/-- `process()` (`diffusion_gain_calculator.cpp:38-48`) for a gain matrix of the given dimensions. -/
def diffusion (n : Nat) (objects : List DObj) (rows cols : Nat) : Outcome (Nat → ℝ) :=
  if rows ≠ 1 ∨ cols ≠ n then .throw .invalidArgument
  else .ok (diffusionLoop n objects fun _ => 0)

end Visr.Panning
