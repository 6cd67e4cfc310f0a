import Verif.Rotation.Model

/-!
# Vector base amplitude panning

Models `/repo/src/libpanning/VBAP.cpp` over the real numbers.  `eps` is the machine epsilon
of the sample type.
-/

namespace Visr.Vbap

open Visr Visr.Rotation

/-- One row of `mInvMatrix`: the rows `inv[0..2]`, `inv[3..5]`, `inv[6..8]` of the inverse. -/
structure Inv where
  r1 : Vec ℝ
  r2 : Vec ℝ
  r3 : Vec ℝ

/-- Data members of `VBAP` (`VBAP.h:66-110`).  `rerouting v r` is the coefficient from virtual
loudspeaker `v` to regular loudspeaker `r`; the regular loudspeakers are the first `regular`
ones of `positions`. -/
structure Vbap where
  positions : List (Vec ℝ)
  regular : Nat
  triplets : List (Nat × Nat × Nat)
  is2D : Bool
  rerouting : Nat → Nat → ℝ
  listener : Vec ℝ
  inv : List Inv

/-- `normalise` (`VBAP.cpp:84-92`). -/
noncomputable def normalise (eps : ℝ) (a : Vec ℝ) : Vec ℝ :=
  let l := Real.sqrt (a.x * a.x + a.y * a.y + a.z * a.z)
  if l ≥ eps then ⟨a.x / l, a.y / l, a.z / l⟩ else a

/-- `temp` of `calcInvMatrices` (`VBAP.cpp:190-192`). -/
def determinant (l1 l2 l3 : Vec ℝ) : ℝ :=
  l1.x * ((l2.y * l3.z) - (l2.z * l3.y)) - l1.y * ((l2.x * l3.z) - (l2.z * l3.x))
    + l1.z * ((l2.x * l3.y) - (l2.y * l3.x))

/-- The entries of the inverse matrix (`VBAP.cpp:194-207`). -/
noncomputable def inverse (l1 l2 l3 : Vec ℝ) : Inv :=
  let temp := determinant l1 l2 l3
  let det := if temp ≠ 0 then 1 / temp else 1
  { r1 := ⟨((l2.y * l3.z) - (l2.z * l3.y)) * det, ((l2.x * l3.z) - (l2.z * l3.x)) * -det,
      ((l2.x * l3.y) - (l2.y * l3.x)) * det⟩
    r2 := ⟨((l1.y * l3.z) - (l1.z * l3.y)) * -det, ((l1.x * l3.z) - (l1.z * l3.x)) * det,
      ((l1.x * l3.y) - (l1.y * l3.x)) * -det⟩
    r3 := ⟨((l1.y * l2.z) - (l1.z * l2.y)) * det, ((l1.x * l2.z) - (l1.z * l2.x)) * -det,
      ((l1.x * l2.y) - (l1.y * l2.x)) * det⟩ }

/-- The loudspeaker directions of one iteration of `calcInvMatrices`
(`VBAP.cpp:148-184`); `none` if an index is out of range.  For a two-dimensional array the
third position is `(0, 0, 1)`, from which the listener position is subtracted, too. -/
noncomputable def corner (eps : ℝ) (v : Vbap) (i : Nat) : Option (Vec ℝ) :=
  v.positions[i]?.map fun l => normalise eps (l.sub v.listener)

@[inherit_doc corner]
noncomputable def thirdCorner (eps : ℝ) (v : Vbap) (i : Nat) : Option (Vec ℝ) :=
  if v.is2D then some (normalise eps ((⟨0, 0, 1⟩ : Vec ℝ).sub v.listener)) else corner eps v i

/-- One iteration of `calcInvMatrices`. -/
noncomputable def invOf (eps : ℝ) (v : Vbap) (t : Nat × Nat × Nat) : Option Inv :=
  match corner eps v t.1, corner eps v t.2.1, thirdCorner eps v t.2.2 with
  | some l1, some l2, some l3 => some (inverse l1 l2 l3)
  | _, _, _ => none

/-- `setListenerPosition` with `calcInvMatrices` (`VBAP.cpp:117-211`): the positions are
accessed without a range check. -/
noncomputable def Vbap.setListener (eps : ℝ) (v : Vbap) (p : Vec ℝ) : Outcome Vbap :=
  let v1 := { v with listener := p }
  match v.triplets.mapM (invOf eps v1) with
  | some inv => .ok { v1 with inv := inv }
  | none => .ub

/-- Result of the triplet search: the triplet number `jmin` and its gains. -/
structure Found where
  j : Nat
  g1 : ℝ
  g2 : ℝ
  g3 : ℝ

/-- `gmin`, the lowest gain of the candidate (`VBAP.cpp:281-283`). -/
noncomputable def Found.gmin (f : Found) : ℝ :=
  let m := f.g1
  let m := if f.g2 < m then f.g2 else m
  if f.g3 < m then f.g3 else m

/-- The gains of triplet `j` (`VBAP.cpp:254-257`). -/
def gainsOf (s : Vec ℝ) (i : Inv) (j : Nat) : Found :=
  ⟨j, s.x * i.r1.x + s.y * i.r1.y + s.z * i.r1.z, s.x * i.r2.x + s.y * i.r2.y + s.z * i.r2.z,
    s.x * i.r3.x + s.y * i.r3.y + s.z * i.r3.z⟩

/-- The number of negative gains (`VBAP.cpp:273`). -/
noncomputable def Found.negatives (f : Found) : Nat :=
  (if f.g1 < 0 then 1 else 0) + (if f.g2 < 0 then 1 else 0) + (if f.g3 < 0 then 1 else 0)

/-- The search loop from triplet `j` (`VBAP.cpp:252-285`); the last argument is the candidate,
`none` for `jmin == invalid`. -/
noncomputable def search (is2D : Bool) (s : Vec ℝ) : List Inv → Nat → Option Found → Option Found
  | [], _, c => c
  | i :: is, j, c =>
    let g := gainsOf s i j
    if g.g1 ≥ 0 ∧ g.g2 ≥ 0 ∧ (g.g3 ≥ 0 ∨ is2D = true) then some g
    else
      match c with
      | none => if g.negatives ≤ 1 then search is2D s is (j + 1) (some g) else search is2D s is (j + 1) none
      | some b =>
        if g.negatives ≤ 1 ∧ g.g1 > b.gmin ∧ g.g2 > b.gmin ∧ g.g3 > b.gmin then
          search is2D s is (j + 1) (some g)
        else search is2D s is (j + 1) (some b)

/-- The source position relative to the listener (`VBAP.cpp:237-248`). -/
def relative (v : Vbap) (src : Vec ℝ) (planeWave : Bool) : Vec ℝ :=
  let s := if planeWave then src else src.sub v.listener
  if v.is2D then ⟨s.x, s.y, 0⟩ else s

/-- `calcPlainVBAP` (`VBAP.cpp:214-309`): the gains of all loudspeakers. -/
noncomputable def plain (v : Vbap) (src : Vec ℝ) (planeWave : Bool) : Outcome (Nat → ℝ) :=
  match search v.is2D (relative v src planeWave) v.inv 0 none with
  | none => .throw .runtimeError
  | some f =>
    match v.triplets[f.j]? with
    | none => .ub
    | some t =>
      if t.1 < v.positions.length ∧ t.2.1 < v.positions.length ∧
          (v.is2D = false → t.2.2 < v.positions.length) then
        let g := Function.update (Function.update (fun _ => 0) t.1 f.g1) t.2.1 f.g2
        .ok (if v.is2D then g else Function.update g t.2.2 f.g3)
      else .ub

/-- The inner loop of `applyRerouting` for regular loudspeaker `i`
(`VBAP.cpp:315-318`), `n` virtual loudspeakers. -/
def rerouteLoop (v : Vbap) (g : Nat → ℝ) (i : Nat) : Nat → ℝ
  | 0 => g i
  | n + 1 => rerouteLoop v g i n + v.rerouting n i * g (v.regular + n)

/-- `applyRerouting` (`VBAP.cpp:311-320`) restricted to the regular loudspeakers. -/
def reroute (v : Vbap) (g : Nat → ℝ) (i : Nat) : ℝ :=
  rerouteLoop v g i (v.positions.length - v.regular)

/-- `calculateGainsUnNormalised` (`VBAP.cpp:108-113`). -/
noncomputable def gainsUnNormalised (v : Vbap) (src : Vec ℝ) (planeWave : Bool) : Outcome (List ℝ) :=
  match plain v src planeWave with
  | .ok g => .ok ((List.range v.regular).map (reroute v g))
  | .throw e => .throw e
  | .ub => .ub

/-- `powerNormalisation` (`VBAP.cpp:70-82`). -/
noncomputable def powerNormalise (eps : ℝ) (g : List ℝ) : List ℝ :=
  let sigPower := g.foldl (fun acc x => acc + x * x) 0
  let factor := 1 / max (Real.sqrt sigPower) eps
  g.map fun x => factor * x

/-- `calculateGains` (`VBAP.cpp:95-106`). -/
noncomputable def gains (eps : ℝ) (v : Vbap) (src : Vec ℝ) (planeWave : Bool) : Outcome (List ℝ) :=
  match gainsUnNormalised v src planeWave with
  | .ok g => .ok (powerNormalise eps g)
  | .throw e => .throw e
  | .ub => .ub

/-- The constructor (`VBAP.cpp:23-66`). -/
noncomputable def Vbap.create (eps : ℝ) (positions : List (Vec ℝ)) (regular : Nat)
    (triplets : List (Nat × Nat × Nat)) (is2D : Bool) (rerouting : Nat → Nat → ℝ) (listener : Vec ℝ) :
    Outcome Vbap :=
  Vbap.setListener eps ⟨positions, regular, triplets, is2D, rerouting, ⟨0, 0, 0⟩, []⟩ listener

end Visr.Vbap
