import Verif.Vbap.Model
import Verif.Efl.Aligned

/-!
# HOA decoding to irregular loudspeaker arrays

Models `/repo/src/libpanning/AllRAD.{h,cpp}` (`panning::AllRAD`), `/repo/src/librcl/hoa_allrad_gain_calculator.cpp`
(`rcl::HoaAllRadGainCalculator`) and `/repo/src/libefl/matrix_functions.cpp` (`efl::product`) over the real numbers.
The panner is the model of `panning::VBAP` (`Verif.Vbap.Model`).
-/

namespace Visr.AllRad
open Visr Visr.Rotation

/-! ### `efl::product` -/

/-- The inner loop of `product` (`matrix_functions.cpp:43-48`) with the addresses of the current elements; the running
value is `val`. -/
def dotLoop (m1 m2 : Nat → ℝ) (step1 step2 : Nat) : Nat → Nat → Nat → ℝ → ℝ
  | 0, _, _, val => val
  | n + 1, p1, p2, val => dotLoop m1 m2 step1 step2 n (p1 + step1) (p2 + step2) (val + m1 p1 * m2 p2)

/-- Sizes and strides passed to `product`. -/
structure Shape where
  rows : Nat
  cols : Nat
  inner : Nat
  row1 : Nat
  col1 : Nat
  row2 : Nat
  col2 : Nat
  rowR : Nat
  colR : Nat

/-- The loop over the columns of the result (`matrix_functions.cpp:36-50`), `n` columns from `colIdx`. -/
def columnLoop (m1 m2 : Nat → ℝ) (s : Shape) (rowIdx : Nat) : Nat → Nat → (Nat → ℝ) → Nat → ℝ
  | 0, _, res => res
  | n + 1, colIdx, res =>
    columnLoop m1 m2 s rowIdx n (colIdx + 1)
      (Function.update res (rowIdx * s.rowR + colIdx * s.colR)
        (dotLoop m1 m2 s.col1 s.row2 s.inner (rowIdx * s.row1) (colIdx * s.col2) 0))

/-- The loop over the rows of the result (`matrix_functions.cpp:34-51`), `n` rows from `rowIdx`. -/
def rowLoop (m1 m2 : Nat → ℝ) (s : Shape) : Nat → Nat → (Nat → ℝ) → Nat → ℝ
  | 0, _, res => res
  | n + 1, rowIdx, res => rowLoop m1 m2 s n (rowIdx + 1) (columnLoop m1 m2 s rowIdx s.cols 0 res)

/-- `efl::product` (`matrix_functions.cpp:18-53`): the memory of the result. The operands are separate from the result. -/
def product (m1 m2 : Nat → ℝ) (res : Nat → ℝ) (s : Shape) : Nat → ℝ := rowLoop m1 m2 s s.rows 0 res

/-! ### `panning::AllRAD` -/

/-- What is used of a `panning::LoudspeakerArray`: the positions of all loudspeakers, the number of regular ones (which
come first), triplets and rerouting. -/
structure LspArray where
  positions : List (Vec ℝ)
  regular : Nat
  triplets : List (Nat × Nat × Nat)
  is2D : Bool
  rerouting : Nat → Nat → ℝ

/-- A matrix in memory (`efl::BasicMatrix`, see `Verif.Efl.Matrix`). -/
structure Mtx where
  rows : Nat
  cols : Nat
  stride : Nat
  data : Nat → ℝ

/-- `BasicMatrix( rows, columns, alignment )`. -/
def Mtx.zero (align rows cols : Nat) : Mtx := ⟨rows, cols, Efl.nextAlignedSize cols align, fun _ => 0⟩

/-- Members of `AllRAD` (`AllRAD.h:61-100`). `positions` are the rows of `mRegularLoudspeakerPositions`, `toReal` is
`mRegularToRealDecodeCoefficients`. -/
structure Rad where
  positions : List (Vec ℝ)
  vbap : Vbap.Vbap
  harmonics : Nat
  regularDecode : Mtx
  realDecode : Mtx
  size : Nat
  toReal : Mtx

/-- `calculateGains()` writes the gains of the regular loudspeakers to a row of the matrix. -/
def Mtx.setRow (m : Mtx) (r : Nat) (vals : List ℝ) : Mtx :=
  { m with data := fun k => if r * m.stride ≤ k then (vals[k - r * m.stride]?).getD (m.data k) else m.data k }

/-- The loop over the regular array (`AllRAD.cpp:64-74`), `n` loudspeakers from `idx`. Reading a row that the matrix of
positions does not have is undefined. -/
noncomputable def panLoop (eps : ℝ) (r : Rad) : Nat → Nat → Mtx → Outcome Mtx
  | 0, _, m => .ok m
  | n + 1, idx, m =>
    match r.positions[idx]? with
    | none => .ub
    | some p => do
      let g ← Vbap.gains eps r.vbap p false
      panLoop eps r n (idx + 1) (m.setRow idx g)

/-- `updateDecodingCoefficients()` (`AllRAD.cpp:62-92`). `product` never fails. -/
noncomputable def Rad.update (eps : ℝ) (r : Rad) : Outcome Rad := do
  let m ← panLoop eps r r.size 0 r.toReal
  let data := product r.regularDecode.data m.data r.realDecode.data
    ⟨r.harmonics, r.realDecode.cols, r.size, r.regularDecode.stride, 1, m.stride, 1, r.realDecode.stride, 1⟩
  .ok { r with toReal := m, realDecode := { r.realDecode with data := data } }

/-- `setListenerPosition()` (`AllRAD.cpp:51-55`). -/
noncomputable def Rad.setListener (eps : ℝ) (r : Rad) (p : Vec ℝ) : Outcome Rad := do
  let v ← r.vbap.setListener eps p
  Rad.update eps { r with vbap := v }

/-- The constructor (`AllRAD.cpp:20-49`). `decode` are the coefficients (`decodeCoeffs`), with the memory layout of a
matrix with the alignment `align`. The arithmetic with the order is that of `unsigned int`. `getPosition()` of the regular
array is not checked. The VBAP object is constructed for a listener at the origin. -/
noncomputable def Rad.create (eps : ℝ) (align : Nat) (regArray real : LspArray) (decode : Mtx) (maxHoaOrder : UInt32) :
    Outcome Rad := do
  let v ← Vbap.Vbap.create eps real.positions real.regular real.triplets real.is2D real.rerouting ⟨0, 0, 0⟩
  let harmonics := ((maxHoaOrder + 1) * (maxHoaOrder + 1)).toNat
  let size := regArray.positions.length
  if decode.rows ≠ harmonics then .throw .invalidArgument
  else if decode.cols ≠ size then .throw .invalidArgument
  else Rad.update eps ⟨regArray.positions.take regArray.regular, v, harmonics, decode,
    Mtx.zero align harmonics real.regular, size, Mtx.zero align size real.regular⟩

/-! ### `rcl::HoaAllRadGainCalculator` -/

/-- `hoaOrder + 1` (`hoa_allrad_gain_calculator.cpp:45`): the rounded-up root of the number of rows. For zero rows
`hoaOrder` wraps around, so that `hoaOrder + 1` is zero, too. Simplification: the root is exact. -/
noncomputable def orderPlusOne (rows : Nat) : Nat := ⌈Real.sqrt rows⌉₊

/-- An object of the scene: a HOA source (exactly this type) with its order and channels, or something else. -/
inductive Obj where
  | hoa (order : UInt32) (channels : List Nat)
  | other

/-- Fixed data of the component: machine precision, number of loudspeakers (rows of the gain matrices), number of object
channels (columns), and whether there is a listener input. -/
structure Cfg where
  eps : ℝ
  loudspeakers : Nat
  channels : Nat
  adaptive : Bool

/-- State: the decoder, the object vector, a pending listener position, the shared input and output gain matrix
(loudspeaker, channel) and the number of error messages. -/
structure State where
  rad : Rad
  scene : List Obj
  listener : Option (Vec ℝ)
  input : Nat → Nat → ℝ
  output : Nat → Nat → ℝ
  errors : Nat

/-- The constructor (`hoa_allrad_gain_calculator.cpp:24-64`). `decodeMatrix` is given by its dimensions and elements; its
copy (53) has the alignment `cVectorAlignmentSamples`, here `align`. -/
noncomputable def create (eps : ℝ) (align : Nat) (n : Nat) (regArray real : LspArray) (rows cols : Nat)
    (decode : Nat → Nat → ℝ) (listener : Vec ℝ) (adaptive : Bool) : Outcome (Cfg × State) :=
  if orderPlusOne rows * orderPlusOne rows ≠ rows ∨ rows = 0 then .throw .invalidArgument
  else if cols ≠ regArray.positions.length then .throw .invalidArgument
  else if cols ≠ regArray.regular then .throw .invalidArgument
  else do
    let stride := Efl.nextAlignedSize cols align
    let r ← Rad.create eps align regArray real ⟨rows, cols, stride, fun k => decode (k / stride) (k % stride)⟩
      (UInt32.ofNat (orderPlusOne rows - 1))
    let r ← Rad.setListener eps r listener
    .ok (⟨eps, real.regular, n, adaptive⟩, ⟨r, [], none, fun _ _ => 0, fun _ _ => 0, 0⟩)

/-- `decodeGains( sigIdx, spkIdx )`. -/
def Rad.gain (r : Rad) (sig spk : Nat) : ℝ := r.realDecode.data (sig * r.realDecode.stride + spk)

/-- The loop over the signals of a HOA source from `sig` (`hoa_allrad_gain_calculator.cpp:115-126`). A row that the
decoding matrix does not have is read without check. -/
def signalLoop (cfg : Cfg) (r : Rad) : Nat → List Nat → (Nat → Nat → ℝ) → (Nat → Nat → ℝ) × Outcome Unit
  | _, [], out => (out, .ok ())
  | sig, ch :: chs, out =>
    if ch ≥ cfg.channels then (out, .throw .runtimeError)
    else if 0 < cfg.loudspeakers ∧ sig ≥ r.harmonics then (out, .ub)
    else signalLoop cfg r (sig + 1) chs
      (fun spk c => if c = ch ∧ spk < cfg.loudspeakers then r.gain sig spk else out spk c)

/-- The loop over the objects (`hoa_allrad_gain_calculator.cpp:98-134`). -/
def objectLoop (cfg : Cfg) (r : Rad) : List Obj → (Nat → Nat → ℝ) → (Nat → Nat → ℝ) × Outcome Unit
  | [], out => (out, .ok ())
  | .other :: os, out => objectLoop cfg r os out
  | .hoa order chs :: os, out =>
    if chs.length ≠ ((order + 1) * (order + 1)).toNat then (out, .throw .runtimeError)
    else
      match signalLoop cfg r 0 chs out with
      | (out', .ok ()) => objectLoop cfg r os out'
      | res => res

/-- What happens to the component. -/
inductive Op where
  /-- a new object vector arrives -/
  | scene (objects : List Obj)
  /-- a new listener position arrives -/
  | listener (pos : Vec ℝ)
  /-- the shared input gain matrix is changed -/
  | gains (m : Nat → Nat → ℝ)
  /-- `process()` is called -/
  | process

/-- The first part of `process()` (`hoa_allrad_gain_calculator.cpp:80-85`): a new listener position is passed to the
decoder. -/
noncomputable def follow (cfg : Cfg) (s : State) : Outcome Rad :=
  match s.listener with
  | none => .ok s.rad
  | some p => s.rad.setListener cfg.eps p

/-- One event; `process()` is `hoa_allrad_gain_calculator.cpp:78-136`. Errors in the scene are caught and reported
(128-132). -/
noncomputable def step (cfg : Cfg) (s : State) : Op → Outcome State
  | .scene objects => .ok { s with scene := objects }
  | .listener pos => .ok (if cfg.adaptive then { s with listener := some pos } else s)
  | .gains m => .ok { s with input := m }
  | .process => do
    let r ← follow cfg s
    match objectLoop cfg r s.scene s.input with
    | (out, .ok ()) => .ok { s with rad := r, listener := none, output := out }
    | (out, .throw _) => .ok { s with rad := r, listener := none, output := out, errors := s.errors + 1 }
    | (_, .ub) => .ub

/-- A history of events. -/
noncomputable def runAll (cfg : Cfg) (s : State) : List Op → Outcome State
  | [] => .ok s
  | op :: ops => do
    let s ← step cfg s op
    runAll cfg s ops

end Visr.AllRad
