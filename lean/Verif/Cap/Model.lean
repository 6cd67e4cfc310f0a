import Verif.Vbap.Model
import Verif.Panning.Model
import Mathlib.Analysis.SpecialFunctions.Trigonometric.Basic

/-!
# Compensated amplitude panning

Models `/repo/src/libpanning/CAP.cpp`, `CAP_VBAP.cpp` and `/repo/src/librcl/cap_gain_calculator.cpp` over the real
numbers. A gain is `none` if it is not a number.
-/

namespace Visr.Cap
open Visr Visr.Rotation

/-- `panning::XYZ` (`XYZ.h:22-94`). -/
structure Source where
  pos : Vec ℝ
  infinite : Bool

/-- `XYZ::normalise()` (`XYZ.h:84-92`). -/
noncomputable def unit (v : Vec ℝ) : Vec ℝ := if v.norm = 0 then v else ⟨v.x / v.norm, v.y / v.norm, v.z / v.norm⟩

/-- Data members of `CAP` (`CAP.h:31-42`); `speakers` are the positions of the regular loudspeakers of `m_array`. -/
structure Cap where
  speakers : List (Vec ℝ)
  listener : Vec ℝ
  axis : Vec ℝ
  hfMode : Bool
  maxGainPreComp : ℝ
  maxGain : ℝ

/-- The vectors `r` (`CAP.cpp:47-51`). -/
noncomputable def Cap.directions (s : Cap) : List (Vec ℝ) := s.speakers.map fun p => unit (p.sub s.listener)

/-- The source seen from the listener (`CAP.cpp:69-71`, `:123-125`). -/
def relative (s : Cap) (src : Source) : Vec ℝ := if src.infinite then src.pos else src.pos.sub s.listener

/-- The gains of one source for three or more loudspeakers (`CAP.cpp:58-114`). The divisor `d` is zero if the interaural
components of all loudspeakers are equal; then all numerators are zero, too, and the gains are NaN. It is infinite for a
source at the origin (`rI0_` is zero). -/
noncomputable def multi (s : Cap) (src : Source) : List (Option ℝ) :=
  let r := s.directions
  let rI0 := src.pos.norm
  let rI_ := (relative s src).norm
  let rI := unit (relative s src)
  let a := r.map fun v => s.axis.dot (v.sub rI)
  let b := a.foldl (fun (acc x : ℝ) => acc + x) 0
  let c := a.foldl (fun (acc x : ℝ) => acc + x * x) 0
  let e := c * r.length - b * b
  if e = 0 then r.map fun _ => none
  else if rI0 = 0 then r.map fun _ => some 0
  else
    let d := e * (rI_ + 1 / 100) / rI0
    let g := a.map fun x => (-b * x + c) / d
    let gMax := g.foldl (fun m x => if x > m then x else m) 0
    if gMax > s.maxGain then g.map fun x => some (x * (s.maxGain / gMax)) else g.map some

/-- `if (std::abs(g2) > gMax) …`: reduce both gains if the larger magnitude exceeds `limit` (`CAP.cpp:169-175`,
`:189-195`). -/
noncomputable def limit (m : ℝ) (g : ℝ × ℝ) : ℝ × ℝ :=
  let gMax := if |g.2| > |g.1| then |g.2| else |g.1|
  if gMax > m then (g.1 * (m / gMax), g.2 * (m / gMax)) else g

/-- The gain remapping of the high-frequency mode (`CAP.cpp:152-164`): the root of a negative number is NaN. -/
noncomputable def remap (g : ℝ × ℝ) : Option (ℝ × ℝ) :=
  if g.1 * g.2 > 0 then
    if g.1 < 0 then none
    else
      let h1 := Real.sqrt g.1
      let h2 := Real.sqrt g.2
      let f := 1 / Real.sqrt (h1 * h1 + h2 * h2)
      some (h1 * f, h2 * f)
  else some (0, 0)

/-- The gains of one source for two loudspeakers (`CAP.cpp:115-218`). -/
noncomputable def two (s : Cap) (r0 r1 : Vec ℝ) (src : Source) : List (Option ℝ) :=
  let rI0 := src.pos.norm
  let rI_ := (relative s src).norm
  let rI := unit (relative s src)
  let g1 := s.axis.dot (rI.sub r1)
  let g2 := -s.axis.dot (rI.sub r0)
  let d := |g1 + g2|
  let d := if d < 1 / 1000 then 1 / 1000 else d
  match if s.hfMode then remap (g1 / d, g2 / d) else some (g1 / d, g2 / d) with
  | none => [none, none]
  | some g =>
    let g := limit s.maxGainPreComp g
    let rI_ := if rI_ < 1 / 1000 then 1 / 1000 else rI_
    let c := rI0 / rI_
    let g := limit s.maxGain (g.1 * c, g.2 * c)
    [some g.1, some g.2]

/-- One row of `calcGains()` (`CAP.cpp:31-230`). Without regular loudspeakers, the element `m_gain(j, 0)` of a matrix
without columns is written. -/
noncomputable def gains (s : Cap) (src : Source) : Outcome (List (Option ℝ)) :=
  match s.directions with
  | [] => .ub
  | [_] => .ok [some 1]
  | [r0, r1] => .ok (two s r0 r1 src)
  | _ => .ok (multi s src)

/-- `setListenerOrientation()` (`CAP.cpp:234-264`). -/
noncomputable def auralAxis (yaw pitch roll : ℝ) : Vec ℝ :=
  ⟨Real.cos yaw * Real.sin pitch * Real.sin roll - Real.sin yaw * Real.cos roll,
    Real.sin yaw * Real.sin pitch * Real.sin roll + Real.cos yaw * Real.cos roll, -Real.cos pitch * Real.sin roll⟩

/-! ### `CAP_VBAP` -/

/-- Data members of `CAP_VBAP` (`CAP_VBAP.h:85-136`): those of `VBAP`, and some more. `near` is
`mListenerIsNearTripletBoundary`, `cosTheta` the member `mNearTripletBoundaryCosTheta`. -/
structure CapVbap where
  base : Vbap.Vbap
  arrayInfinite : Bool
  fade2D : Bool
  cosTheta : ℝ
  near : List Bool

/-- The loudspeaker directions of one triplet (`CAP_VBAP.cpp:152-189`). The positions are accessed without a check, the
third one also for two-dimensional arrays. -/
noncomputable def corners (eps : ℝ) (v : CapVbap) (t : Nat × Nat × Nat) : Option (Vec ℝ × Vec ℝ × Vec ℝ) := do
  let l1 ← v.base.positions[t.1]?
  let l2 ← v.base.positions[t.2.1]?
  let l3 ← v.base.positions[t.2.2]?
  let rel := fun l : Vec ℝ => if v.arrayInfinite then l else l.sub v.base.listener
  let (l1, l2, l3) := (rel l1, rel l2, rel l3)
  let (l1, l2, l3) :=
    if v.base.is2D then ((⟨l1.x, l1.y, 0⟩ : Vec ℝ), (⟨l2.x, l2.y, 0⟩ : Vec ℝ), (⟨0, 0, 1⟩ : Vec ℝ)) else (l1, l2, l3)
  some (Vbap.normalise eps l1, Vbap.normalise eps l2, Vbap.normalise eps l3)

/-- One iteration of `calcInvMatrices()` (`CAP_VBAP.cpp:149-222`). -/
noncomputable def invOf (eps : ℝ) (v : CapVbap) (t : Nat × Nat × Nat) : Option (Vbap.Inv × Bool) :=
  (corners eps v t).map fun (l1, l2, l3) =>
    (Vbap.inverse l1 l2 l3, decide (l1.x * l2.x + l1.y * l2.y < v.cosTheta))

/-- `setListenerPosition()` (`CAP_VBAP.cpp:111-128`). -/
noncomputable def CapVbap.setListener (eps : ℝ) (v : CapVbap) (p : Vec ℝ) : Outcome CapVbap :=
  let v1 : CapVbap := { v with base := { v.base with listener := p } }
  match v.base.triplets.mapM (invOf eps v1) with
  | some l => .ok { v1 with base := { v1.base with inv := l.map Prod.fst }, near := l.map Prod.snd }
  | none => .ub

/-- The source relative to the listener (`CAP_VBAP.cpp:250-261`). -/
def CapVbap.relative (v : CapVbap) (src : Vec ℝ) (planeWave : Bool) : Vec ℝ :=
  let s := if planeWave then src else src.sub v.base.listener
  if v.base.is2D && !v.fade2D then ⟨s.x, s.y, 0⟩ else s

/-- The search loop (`CAP_VBAP.cpp:265-306`): the first triplet which contains the source (or its opposite, if the
listener is near to the triplet). -/
noncomputable def search (is2D : Bool) (s : Vec ℝ) : List Vbap.Inv → List Bool → Nat → Option Vbap.Found
  | i :: is, n :: ns, j =>
    let g := Vbap.gainsOf s i j
    if (g.g1 ≥ 0 ∧ g.g2 ≥ 0 ∧ (g.g3 ≥ 0 ∨ is2D = true)) ∨
        (g.g1 ≤ 0 ∧ g.g2 ≤ 0 ∧ (g.g3 ≤ 0 ∨ is2D = true) ∧ n = true) then
      some (if g.g1 ≤ 0 ∧ g.g2 ≤ 0 then ⟨g.j, -g.g1, -g.g2, g.g3⟩ else g)
    else search is2D s is ns (j + 1)
  | _, _, _ => none

/-- `calcPlainGains()` (`CAP_VBAP.cpp:228-347`). -/
noncomputable def plain (v : CapVbap) (src : Vec ℝ) (planeWave : Bool) : Outcome (Nat → ℝ) :=
  match search v.base.is2D (v.relative src planeWave) v.base.inv v.near 0 with
  | none => .ok fun _ => 0
  | some f =>
    match v.base.triplets[f.j]? with
    | none => .ub
    | some t =>
      if t.1 < v.base.positions.length ∧ t.2.1 < v.base.positions.length ∧
          (v.base.is2D = false → t.2.2 < v.base.positions.length) then
        let g := Function.update (Function.update (fun _ => 0) t.1 f.g1) t.2.1 f.g2
        .ok (if v.base.is2D then g else Function.update g t.2.2 f.g3)
      else .ub

/-- `calculateGainsUnNormalised()` (`CAP_VBAP.cpp:103-108`); `applyRerouting()` is the same as in `VBAP`. -/
noncomputable def CapVbap.gainsUnNormalised (v : CapVbap) (src : Vec ℝ) (planeWave : Bool) : Outcome (List ℝ) :=
  match plain v src planeWave with
  | .ok g => .ok ((List.range v.base.regular).map (Vbap.reroute v.base g))
  | .throw e => .throw e
  | .ub => .ub

/-! ### `CAPGainCalculator` -/

/-- What the calculator distinguishes by `type()` (`cap_gain_calculator.cpp:149-180`); `other` are all other types, also
classes derived from `PointSource`. -/
inductive Kind where
  | point (pos : Vec ℝ)
  | pointDiffuse (pos : Vec ℝ) (diffuseness : ℝ)
  | plane (az el : ℝ)
  | other

/-- An object. -/
structure Obj where
  channels : List Nat
  kind : Kind

/-- State of the component; `vbip` exists if the high-frequency output does. The gain matrices are
loudspeakers × channels. -/
structure State where
  cap : Cap
  vbip : Option CapVbap
  scene : List Obj
  sceneChanged : Bool
  listener : Option (Vec ℝ × ℝ × ℝ × ℝ)
  positions : Nat → Source
  levels : Nat → ℝ
  lf : Nat → Nat → Option ℝ
  hf : Nat → Nat → Option ℝ

/-- The loop over the objects (`cap_gain_calculator.cpp:128-181`). In the case of a point source with diffuseness, the
level is overwritten by the following case. -/
noncomputable def assign (n : Nat) : List Obj → (Nat → Source) × (Nat → ℝ) → (Nat → Source) × (Nat → ℝ)
  | [], r => r
  | o :: os, r =>
    match o.channels with
    | [c] =>
      if c ≥ n then assign n os r
      else
        match o.kind with
        | .point pos => assign n os (Function.update r.1 c ⟨pos, false⟩, Function.update r.2 c 1)
        | .pointDiffuse pos d =>
          let r := (r.1, Function.update r.2 c (1 - d))
          assign n os (Function.update r.1 c ⟨pos, false⟩, Function.update r.2 c 1)
        | .plane az el =>
          assign n os (Function.update r.1 c ⟨Panning.spherical2cartesian (az * (Real.pi / 180)) (el * (Real.pi / 180)) 1, true⟩,
            Function.update r.2 c 1)
        | .other => assign n os (r.1, Function.update r.2 c 0)
    | _ => assign n os r

/-- Result of `assign` for a new scene: all sources at the default position, levels zero
(`cap_gain_calculator.cpp:118-124`). -/
noncomputable def assigned (n : Nat) (scene : List Obj) : (Nat → Source) × (Nat → ℝ) :=
  assign n scene (fun _ => ⟨⟨1, 0, 0⟩, false⟩, fun _ => 0)

/-- The loop over the channels for the low-frequency matrix (`cap_gain_calculator.cpp:182-202`), from the last channel
on. -/
noncomputable def lfLoop (s : Cap) (src : Nat → Source) (level : Nat → ℝ) :
    Nat → (Nat → Nat → Option ℝ) → Outcome (Nat → Nat → Option ℝ)
  | 0, m => .ok m
  | n + 1, m =>
    match gains s (src n) with
    | .ok g => lfLoop s src level n fun r c =>
        if c = n ∧ r < s.speakers.length then (g.getD r none).map fun x => level n * x else m r c
    | .throw e => .throw e
    | .ub => .ub

/-- The loop over the channels for the high-frequency matrix (`cap_gain_calculator.cpp:207-224`). The result of the
lambda function in `std::for_each` is dropped: the gains are as before. -/
noncomputable def hfLoop (eps : ℝ) (v : CapVbap) (src : Nat → Source) (level : Nat → ℝ) :
    Nat → (Nat → Nat → Option ℝ) → Outcome (Nat → Nat → Option ℝ)
  | 0, m => .ok m
  | n + 1, m =>
    match v.gainsUnNormalised (src n).pos (src n).infinite with
    | .ok g =>
      let sigNorm := Real.sqrt (g.foldl (fun acc x => acc + x * x) 0)
      let normedLevel := level n / max sigNorm eps
      hfLoop eps v src level n fun r c =>
        if c = n ∧ r < v.base.regular then some (normedLevel * g.getD r 0) else m r c
    | .throw e => .throw e
    | .ub => .ub

/-- What happens to the component. -/
inductive Op where
  | scene (objects : List Obj)
  | listener (pos : Vec ℝ) (yaw pitch roll : ℝ)
  | process

/-- The update of the calculators for a new listener position (`cap_gain_calculator.cpp:84-98`). -/
noncomputable def follow (eps : ℝ) (s : State) : Outcome State :=
  match s.listener with
  | none => .ok s
  | some (p, yaw, pitch, roll) =>
    let cap := { s.cap with listener := p, axis := auralAxis yaw pitch roll }
    match s.vbip with
    | none => .ok { s with cap := cap, listener := none }
    | some v =>
      match v.setListener eps p with
      | .ok v => .ok { s with cap := cap, vbip := some v, listener := none }
      | .throw e => .throw e
      | .ub => .ub

/-- `process( objects, gains )` (`cap_gain_calculator.cpp:114-226`) for `n` channels. -/
noncomputable def calculate (eps : ℝ) (n : Nat) (s : State) : Outcome State :=
  let a := assigned n s.scene
  match lfLoop s.cap a.1 a.2 n (fun _ _ => some 0) with
  | .throw e => .throw e
  | .ub => .ub
  | .ok lf =>
    match s.vbip with
    | none => .ok { s with positions := a.1, levels := a.2, lf := lf }
    | some v =>
      match hfLoop eps v a.1 a.2 n s.hf with
      | .throw e => .throw e
      | .ub => .ub
      | .ok hf => .ok { s with positions := a.1, levels := a.2, lf := lf, hf := hf }

/-- `process()` (`cap_gain_calculator.cpp:82-112`): the test of the changed flag of the listener position comes after its
reset. The object vector cannot fail to be processed except with undefined behaviour, therefore states after exceptions
are not distinguished. -/
noncomputable def step (eps : ℝ) (n : Nat) (s : State) : Op → Outcome State
  | .scene objects => .ok { s with scene := objects, sceneChanged := true }
  | .listener p yaw pitch roll => .ok { s with listener := some (p, yaw, pitch, roll) }
  | .process =>
    match follow eps s with
    | .throw e => .throw e
    | .ub => .ub
    | .ok s =>
      if s.sceneChanged || s.listener.isSome then
        match calculate eps n s with
        | .ok s => .ok { s with sceneChanged := false }
        | .throw e => .throw e
        | .ub => .ub
      else .ok s

/-- The constructor (`cap_gain_calculator.cpp:33-70`): the interaural axis is the x axis until there is a listener
position. -/
noncomputable def init (eps : ℝ) (speakers : List (Vec ℝ)) (hfMode : Bool) (vbip : Option CapVbap) : Outcome State :=
  let s : State :=
    { cap := ⟨speakers, ⟨0, 0, 0⟩, ⟨1, 0, 0⟩, hfMode, 3 / 2, 10⟩, vbip := vbip, scene := [], sceneChanged := false,
      listener := none, positions := fun _ => ⟨⟨0, 0, 0⟩, false⟩, levels := fun _ => 0,
      lf := fun _ _ => some 0, hf := fun _ _ => some 0 }
  match vbip with
  | none => .ok s
  | some v =>
    match v.setListener eps ⟨0, 0, 0⟩ with
    | .ok v => .ok { s with vbip := some v }
    | .throw e => .throw e
    | .ub => .ub

/-- A history of the component. -/
noncomputable def runAll (eps : ℝ) (n : Nat) (s : State) : List Op → Outcome State
  | [] => .ok s
  | o :: ops =>
    match step eps n s o with
    | .ok s => runAll eps n s ops
    | .throw e => .throw e
    | .ub => .ub

end Visr.Cap
