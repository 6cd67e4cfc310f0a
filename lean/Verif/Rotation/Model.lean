import Verif.PTree
import Mathlib.Analysis.SpecialFunctions.Complex.Arg
import Mathlib.Analysis.SpecialFunctions.Trigonometric.Inverse
import Mathlib.Analysis.SpecialFunctions.Trigonometric.Basic

/-!
# Positions, quaternions and listener positions

Models
* `/repo/src/librbbl/quaternion.cpp`,
* `/repo/src/librbbl/position_3d.cpp`,
* `/repo/src/libpml/listener_position.cpp`.

The purely algebraic operations are written over an arbitrary commutative ring;
the ones that need roots or angles over the reals.  Rounding is not modelled.
A division by zero, which gives NaN or infinite coordinates in the program, is
the value `none`.  The machine epsilon of the coordinate type is the parameter
`eps`.
-/

namespace Visr.Rotation

open Visr

/-- `rbbl::Quaternion`: the four components of the wrapped
`boost::math::quaternion` (src/librbbl/quaternion.hpp, member `mQuat`). -/
@[ext]
structure Quat (K : Type*) where
  w : K
  x : K
  y : K
  z : K
  deriving DecidableEq

/-- `rbbl::Position3D` (src/librbbl/position_3d.hpp, member `mPos`). -/
@[ext]
structure Vec (K : Type*) where
  x : K
  y : K
  z : K
  deriving DecidableEq

section Algebra
variable {K : Type*} [CommRing K]

/-- `Quaternion()` (src/librbbl/quaternion.cpp:18-21). -/
def Quat.one : Quat K := ⟨1, 0, 0, 0⟩

/-- `Quaternion( w, x, y, z, normalise )` (src/librbbl/quaternion.cpp:23-29).
The last argument is not used in the body. -/
def Quat.mk' (w x y z : K) (_normalise : Bool) : Quat K := ⟨w, x, y, z⟩

/-- `operator*( lhs, rhs )` and `operator*=` (src/librbbl/quaternion.cpp:253-258,
:287-293): the Hamilton product of `boost::math::quaternion`. -/
def Quat.mul (p q : Quat K) : Quat K :=
  ⟨p.w * q.w - p.x * q.x - p.y * q.y - p.z * q.z,
   p.w * q.x + p.x * q.w + p.y * q.z - p.z * q.y,
   p.w * q.y - p.x * q.z + p.y * q.w + p.z * q.x,
   p.w * q.z + p.x * q.y - p.y * q.x + p.z * q.w⟩

/-- `conjugate` (src/librbbl/quaternion.cpp:170-174, :205-210). -/
def Quat.conj (q : Quat K) : Quat K := ⟨q.w, -q.x, -q.y, -q.z⟩

/-- `operator*( scale, val )` and `operator*=` for a scale
(src/librbbl/quaternion.cpp:260-265, :302-307). -/
def Quat.scale (a : K) (q : Quat K) : Quat K := ⟨a * q.w, a * q.x, a * q.y, a * q.z⟩

/-- `operator+` (src/librbbl/quaternion.cpp:273-279). -/
def Quat.add (p q : Quat K) : Quat K := ⟨p.w + q.w, p.x + q.x, p.y + q.y, p.z + q.z⟩

/-- `normSquare()` (src/librbbl/quaternion.cpp:218-222). -/
def Quat.normSquare (q : Quat K) : K := q.w * q.w + q.x * q.x + q.y * q.y + q.z * q.z

/-- `dot` (src/librbbl/quaternion.cpp:353-359). -/
def Quat.dot (p q : Quat K) : K := p.w * q.w + p.x * q.x + p.y * q.y + p.z * q.z

/-- `Quaternion::rotate` (src/librbbl/quaternion.cpp:266-270). -/
def Quat.rotate (q rot : Quat K) : Quat K := rot.mul q

/-- `Position3D::normSquare` (src/librbbl/position_3d.cpp:56-60). -/
def Vec.normSquare (v : Vec K) : K := v.x * v.x + v.y * v.y + v.z * v.z

/-- `dot` (src/librbbl/position_3d.cpp:211-216). -/
def Vec.dot (v u : Vec K) : K := v.x * u.x + v.y * u.y + v.z * u.z

/-- `operator+`, `operator+=` (src/librbbl/position_3d.cpp:68-76, :153-161). -/
def Vec.add (v u : Vec K) : Vec K := ⟨v.x + u.x, v.y + u.y, v.z + u.z⟩

/-- `operator-`, `operator-=` (src/librbbl/position_3d.cpp:78-86, :163-171). -/
def Vec.sub (v u : Vec K) : Vec K := ⟨v.x - u.x, v.y - u.y, v.z - u.z⟩

/-- `operator*( scale, val )` (src/librbbl/position_3d.cpp:181-188). -/
def Vec.scale (a : K) (v : Vec K) : Vec K := ⟨a * v.x, a * v.y, a * v.z⟩

/-- `Position3D::rotate` and the free function `rotate`
(src/librbbl/position_3d.cpp:97-107, :218-225). -/
def Vec.rotate (v : Vec K) (rot : Quat K) : Vec K :=
  let asQuat : Quat K := ⟨0, v.x, v.y, v.z⟩
  let resQuat := (rot.mul asQuat).mul rot.conj
  ⟨resQuat.x, resQuat.y, resQuat.z⟩

/-- `Position3D::translate` (src/librbbl/position_3d.cpp:109-114). -/
def Vec.translate (v shift : Vec K) : Vec K := v.add shift

/-- `Position3D::transform` and the free function
(src/librbbl/position_3d.cpp:116-122, :227-235). -/
def Vec.transform (v : Vec K) (rot : Quat K) (shift : Vec K) : Vec K :=
  (v.rotate rot).translate shift

end Algebra

noncomputable section

/-- `std::atan2( y, x )`: the angle of the point (x,y), in (-π, π], and 0 at the
origin. (The sign of a zero is not modelled.) -/
def atan2 (y x : ℝ) : ℝ := Complex.arg ⟨x, y⟩

/-- Division of two reals with the NaN/infinity of a zero divisor as `none`. -/
def fdiv (a b : ℝ) : Option ℝ := if b = 0 then none else some (a / b)

/-! ### Quaternions -/

/-- `Quaternion::norm` (src/librbbl/quaternion.cpp:212-216). -/
def Quat.norm (q : Quat ℝ) : ℝ := Real.sqrt q.normSquare

/-- `yaw()` (src/librbbl/quaternion.cpp:104-112). -/
def Quat.yaw (q : Quat ℝ) : ℝ :=
  atan2 (2 * (q.w * q.z + q.x * q.y)) (1 - 2 * (q.y * q.y + q.z * q.z))

/-- `pitch()` (src/librbbl/quaternion.cpp:114-124). -/
def Quat.pitch (q : Quat ℝ) : ℝ :=
  let arg := 2 * (q.w * q.y - q.z * q.x)
  if |arg| ≥ 1 then (if arg < 0 then -(Real.pi / 2) else Real.pi / 2) else Real.arcsin arg

/-- `roll()` (src/librbbl/quaternion.cpp:126-133). -/
def Quat.roll (q : Quat ℝ) : ℝ :=
  atan2 (2 * (q.w * q.x + q.y * q.z)) (1 - 2 * (q.x * q.x + q.y * q.y))

/-- `rotationVector()` (src/librbbl/quaternion.cpp:135-151). -/
def Quat.rotationVector (eps : ℝ) (q : Quat ℝ) : Vec ℝ :=
  let norm := Real.sqrt (q.x * q.x + q.y * q.y + q.z * q.z)
  if norm ≤ eps then ⟨1, 0, 0⟩ else
    let scale := 1 / norm
    ⟨scale * q.x, scale * q.y, scale * q.z⟩

/-- `rotationAngle()` (src/librbbl/quaternion.cpp:153-161). -/
def Quat.rotationAngle (q : Quat ℝ) : ℝ :=
  2 * atan2 (Real.sqrt (q.x * q.x + q.y * q.y + q.z * q.z)) q.w

/-- `setYPR`, `fromYPR` (src/librbbl/quaternion.cpp:51-58, :176-191). -/
def Quat.fromYPR (yaw pitch roll : ℝ) : Quat ℝ :=
  let cy := Real.cos (yaw * (1 / 2))
  let sy := Real.sin (yaw * (1 / 2))
  let cp := Real.cos (pitch * (1 / 2))
  let sp := Real.sin (pitch * (1 / 2))
  let cr := Real.cos (roll * (1 / 2))
  let sr := Real.sin (roll * (1 / 2))
  ⟨cy * cp * cr + sy * sp * sr, cy * cp * sr - sy * sp * cr,
   sy * cp * sr + cy * sp * cr, sy * cp * cr - cy * sp * sr⟩

/-- `Position3D::norm` (src/librbbl/position_3d.cpp:50-54). -/
def Vec.norm (v : Vec ℝ) : ℝ := Real.sqrt v.normSquare

/-- Free function `normalise` for positions (src/librbbl/position_3d.cpp:197-209).
The `Option` is `none` when coordinates become NaN. -/
def Vec.normalise (eps : ℝ) (v : Vec ℝ) (silentDivideByZero : Bool := false) :
    Outcome (Option (Vec ℝ)) :=
  let n2 := v.norm
  if !silentDivideByZero && decide (n2 < eps) then .throw .runtimeError
  else .ok ((fdiv 1 n2).map (fun s => v.scale s))

/-- `setRotationVector`, `fromRotationVector` (src/librbbl/quaternion.cpp:60-69,
:193-203). -/
def Quat.fromRotationVector (eps : ℝ) (rotVec : Vec ℝ) (angle : ℝ) :
    Outcome (Option (Quat ℝ)) := do
  let normVec ← rotVec.normalise eps
  .ok (normVec.map fun n =>
    let sinPhi2 := Real.sin (1 / 2 * angle)
    ⟨Real.cos (1 / 2 * angle), sinPhi2 * n.x, sinPhi2 * n.y, sinPhi2 * n.z⟩)

/-- `Quaternion::normalise` and the free function
(src/librbbl/quaternion.cpp:224-236, :343-351). -/
def Quat.normalise (eps : ℝ) (q : Quat ℝ) (adjustSign : Bool := false)
    (silentDivideByZero : Bool := false) : Outcome (Option (Quat ℝ)) :=
  let l2 := q.norm
  if !silentDivideByZero && decide (l2 < eps) then .throw .runtimeError
  else
    let scale : ℝ := if adjustSign && decide (q.w < 0) then -1 else 1
    .ok ((fdiv scale l2).map (fun s => q.scale s))

/-- `angleNormalised` for quaternions (src/librbbl/quaternion.cpp:327-341). -/
def Quat.angleNormalised (p q : Quat ℝ) : ℝ :=
  let wDot := p.dot q
  let wDiff := Real.sqrt |wDot|
  2 * Real.arccos (max (min wDiff 1) (-1))

/-- `interpolateSpherical` for quaternions (src/librbbl/quaternion.cpp:361-383). -/
def Quat.interpolateSpherical (eps : ℝ) (pos0 pos1 : Quat ℝ) (t : ℝ) :
    Outcome (Option (Quat ℝ)) := do
  let n0 ← pos0.normalise eps
  let n1 ← pos1.normalise eps
  .ok (do
    let n0 ← n0
    let n1 ← n1
    let omega := Real.arccos (min 1 (max (-1) (n0.dot n1)))
    let sinOmega := Real.sin omega
    let sf1 ← fdiv (Real.sin ((1 - t) * omega)) sinOmega
    let sf2 ← fdiv (Real.sin (t * omega)) sinOmega
    some ((pos0.scale sf1).add (pos1.scale sf2)))

/-! ### Positions -/

/-- `angleNormalised` for positions (src/librbbl/position_3d.cpp:142-151). -/
def Vec.angleNormalised (v u : Vec ℝ) : ℝ :=
  Real.arccos (max (-1) (min 1 (v.dot u)))

/-- `interpolateSpherical` for positions (src/librbbl/position_3d.cpp:237-258). -/
def Vec.interpolateSpherical (eps : ℝ) (pos0 pos1 : Vec ℝ) (t : ℝ) :
    Outcome (Option (Vec ℝ)) := do
  let n0 ← pos0.normalise eps
  let n1 ← pos1.normalise eps
  .ok (do
    let n0 ← n0
    let n1 ← n1
    let omega := n0.angleNormalised n1
    if omega < eps then
      some ((pos0.scale (1 - t)).add (pos1.scale t))
    else do
      let sf ← fdiv 1 (Real.sin omega)
      let c0 := sf * Real.sin ((1 - t) * omega)
      let c1 := sf * Real.sin (t * omega)
      let resDir := (n0.scale c0).add (n1.scale c1)
      let resRadius := (1 - t) * pos0.norm + t * pos1.norm
      some (resDir.scale resRadius))

/-! ### Listener positions -/

/-- `pml::ListenerPosition` (src/libpml/listener_position.hpp): time stamp, face
id, number of listeners, position and orientation. -/
@[ext]
structure Listener where
  time : ℕ
  face : ℕ
  listeners : ℕ
  pos : Vec ℝ
  orient : Quat ℝ

/-- `translate` (src/libpml/listener_position.cpp:198-202). -/
def Listener.translate (l : Listener) (v : Vec ℝ) : Listener := { l with pos := l.pos.add v }

/-- `rotatePosition` (src/libpml/listener_position.cpp:211-215). -/
def Listener.rotatePosition (l : Listener) (q : Quat ℝ) : Listener :=
  { l with pos := l.pos.rotate q }

/-- `rotateOrientation` (src/libpml/listener_position.cpp:217-221). -/
def Listener.rotateOrientation (l : Listener) (q : Quat ℝ) : Listener :=
  { l with orient := q.mul l.orient }

/-- `rotate` (src/libpml/listener_position.cpp:204-209). -/
def Listener.rotate (l : Listener) (q : Quat ℝ) : Listener :=
  (l.rotatePosition q).rotateOrientation q

/-- `transform` (src/libpml/listener_position.cpp:223-229). -/
def Listener.transform (l : Listener) (q : Quat ℝ) (v : Vec ℝ) : Listener :=
  (l.rotate q).translate v

/-- `efl::degree2radian` (src/libefl/degree_radian_conversion.hpp:22-26). -/
def degree2radian (d : ℝ) : ℝ := Real.pi / 180 * d

/-- `efl::radian2degree` (src/libefl/degree_radian_conversion.hpp:28-32). -/
def radian2degree (r : ℝ) : ℝ := 180 / Real.pi * r

/-- The children of a "quaternion" node. -/
structure QuatTree where
  w : Entry ℝ
  x : Entry ℝ
  y : Entry ℝ
  z : Entry ℝ

/-- The children of a "rotationVector" node. -/
structure RotVecTree where
  x : Entry ℝ
  y : Entry ℝ
  z : Entry ℝ
  angle : Entry ℝ

/-- The children of an "orientation" node. -/
structure OrientTree where
  quaternion : Option QuatTree
  yaw : Entry ℝ
  pitch : Entry ℝ
  roll : Entry ℝ
  rotationVector : Option RotVecTree

/-- The property tree read from or written to a listener position message. -/
structure ListenerTree where
  x : Entry ℝ
  y : Entry ℝ
  z : Entry ℝ
  orientation : Option OrientTree
  timeStamp : Entry ℕ
  faceId : Entry ℕ
  numListeners : Entry ℕ

/-- The orientation a tree describes, or the exception thrown while reading it
(src/libpml/listener_position.cpp:268-313).  NaN orientations are `ub`-free
`none`. -/
def readOrientation (eps : ℝ) : Option OrientTree → Outcome (Option (Quat ℝ))
  | none => .ok (some Quat.one)
  | some t =>
    let hasQuat := t.quaternion.isSome
    let hasYpr := t.yaw.present || t.pitch.present || t.roll.present
    let hasRot := t.rotationVector.isSome
    if (if hasQuat then 1 else 0) + (if hasYpr then 1 else 0) + (if hasRot then 1 else 0) > 1 then
      .throw .invalidArgument
    else
      match t.quaternion with
      | some q => do
        let w ← q.w.get
        let x ← q.x.get
        let y ← q.y.get
        let z ← q.z.get
        .ok (some ⟨w, x, y, z⟩)
      | none =>
        if hasYpr then
          .ok (some (Quat.fromYPR (degree2radian (t.yaw.getD 0)) (degree2radian (t.pitch.getD 0))
            (degree2radian (t.roll.getD 0))))
        else
          match t.rotationVector with
          | some r => do
            let x ← r.x.get
            let y ← r.y.get
            let z ← r.z.get
            let a ← r.angle.get
            Quat.fromRotationVector eps ⟨x, y, z⟩ (degree2radian a)
          | none => .ok (some (Quat.fromYPR 0 0 0))

/-- `parseJson( tree )` (src/libpml/listener_position.cpp:260-319): the outcome of
the call together with the listener position afterwards.  The orientation is
assigned by `setOrientation…` after everything that can throw has been read; the
remaining values are read with defaults.  (`none` as an orientation, that is NaN,
is stored as the unit quaternion here; it needs `eps = 0`, which no
floating-point type has.) -/
def Listener.parseJson (eps : ℝ) (l : Listener) (t : ListenerTree) : Outcome Unit × Listener :=
  let x := t.x.getD 0
  let y := t.y.getD 0
  let z := t.z.getD 0
  match readOrientation eps t.orientation with
  | .throw e => (.throw e, l)
  | .ub => (.ub, l)
  | .ok q =>
    let l1 : Listener := { l with orient := q.getD Quat.one }
    let l2 : Listener := { l1 with pos := ⟨x, y, z⟩ }
    let l3 : Listener := { l2 with time := t.timeStamp.getD 0 }
    let l4 : Listener := { l3 with face := t.faceId.getD 0 }
    (.ok (), { l4 with listeners := t.numListeners.getD 1 })

/-- `RotationFormat` (src/libpml/listener_position.hpp). -/
inductive Format where
  | ypr
  | rotationVector
  | quaternion

/-- `writeJson( tree, format )` (src/libpml/listener_position.cpp:337-392). -/
def Listener.writeJson (eps : ℝ) (l : Listener) (f : Format) : ListenerTree where
  x := .val l.pos.x
  y := .val l.pos.y
  z := .val l.pos.z
  orientation := some (match f with
    | .ypr =>
      { quaternion := none, yaw := .val (radian2degree l.orient.yaw),
        pitch := .val (radian2degree l.orient.pitch),
        roll := .val (radian2degree l.orient.roll), rotationVector := none }
    | .rotationVector =>
      let vec := l.orient.rotationVector eps
      { quaternion := none, yaw := .missing, pitch := .missing, roll := .missing,
        rotationVector := some { x := .val vec.x, y := .val vec.y, z := .val vec.z,
                                 angle := .val (radian2degree l.orient.rotationAngle) } }
    | .quaternion =>
      { quaternion := some { w := .val l.orient.w, x := .val l.orient.x, y := .val l.orient.y,
                             z := .val l.orient.z },
        yaw := .missing, pitch := .missing, roll := .missing, rotationVector := none })
  timeStamp := if l.time ≠ 0 then .val l.time else .missing
  faceId := if l.face ≠ 0 then .val l.face else .missing
  numListeners := .val l.listeners

end

end Visr.Rotation
