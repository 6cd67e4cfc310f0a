import Verif.Rotation.Model

/-!
# The listener position decoder

Models `/repo/src/librcl/position_decoder.cpp` with its message queue and its double
buffered output.
-/

namespace Visr.Decoder

open Visr Visr.Rotation

noncomputable section

/-- `std::numeric_limits< unsigned int >::max()`. -/
def faceMax : ℕ := 2 ^ 32 - 1

/-- A message: `none` if the text is not valid JSON, else its property tree.  Face
ids and time stamps outside the range of their types are malformed entries. -/
abbrev PosMessage := Option ListenerTree

/-- `newPos.parseJson( msgStream )` (src/libpml/listener_position.cpp:247-253): reading
the JSON text throws an exception derived from `std::runtime_error`. -/
def parseMessage (eps : ℝ) (l : Listener) : PosMessage → Outcome Unit × Listener
  | none => (.throw .runtimeError, l)
  | some t => l.parseJson eps t

/-- The local variables of `PositionDecoder::process()` (position_decoder.cpp:51-54). -/
structure PosVars where
  newPos : Listener
  foundPos : Listener
  smallest : ℕ
  latest : ℕ

/-- One iteration of the loop of `process()` (position_decoder.cpp:55-80): every
exception derived from `std::exception` is caught, and this code throws no others. -/
def posIteration (eps : ℝ) (v : PosVars) (m : PosMessage) : PosVars :=
  let r := parseMessage eps v.newPos m
  let v1 := { v with newPos := r.2 }
  match r.1 with
  | .ok _ =>
    if r.2.face ≤ v.smallest then
      if r.2.time ≥ v.latest then
        { v1 with foundPos := r.2, smallest := r.2.face, latest := r.2.time }
      else v1
    else v1
  | _ => v1

/-- The decoder and its output: the fixed offset and rotation, both buffers, the
buffer belonging to the decoder, and the flag seen by receivers. -/
structure PosDecoder where
  offset : Vec ℝ
  rotation : Quat ℝ
  buf : Bool → Listener
  front : Bool
  changed : Bool

/-- What receivers read. -/
def PosDecoder.seen (d : PosDecoder) : Listener := d.buf (!d.front)

/-- `ListenerPosition()`. -/
def Listener.default : Listener := ⟨0, 0, 1, ⟨0, 0, 0⟩, Quat.one⟩

/-- `PositionDecoder::process()` (position_decoder.cpp:49-88) with `ms` pending. -/
def PosDecoder.process (eps : ℝ) (d : PosDecoder) (ms : List PosMessage) : PosDecoder :=
  let v := ms.foldl (posIteration eps) ⟨Listener.default, Listener.default, faceMax, 0⟩
  if v.smallest ≠ faceMax then
    { d with
      buf := fun b => if b = d.front then v.foundPos.transform d.rotation d.offset else d.buf b
      front := !d.front
      changed := true }
  else d

end

end Visr.Decoder
