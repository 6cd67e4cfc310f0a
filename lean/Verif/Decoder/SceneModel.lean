import Verif.ObjectVector.Model

/-!
# The scene decoder

Models `/repo/src/librcl/scene_decoder.cpp` together with the queue of messages and
the double buffered output it is connected to
(`/repo/src/libpml/double_buffering_protocol.cpp:52-60`, see `Verif/Protocol/Model.lean`).
-/

namespace Visr.Decoder

open Visr Visr.ObjectVector

variable {K E R L : Type}

/-- The two buffers of the output connection, the buffer which belongs to the decoder
(the front data; receivers read the other one), the pending messages (oldest first)
and the flag that receivers see as `changed()`. -/
structure Scene (K E R L : Type) where
  buf : Bool → Vec K E R L
  front : Bool
  queue : List (Message K E R L)
  changed : Bool

/-- `data()` of a receiver: the back data. -/
def Scene.seen (s : Scene K E R L) : Vec K E R L := s.buf (!s.front)

/-- Initially both buffers are default constructed and no message is pending. -/
def Scene.init : Scene K E R L := ⟨fun _ => [], false, [], false⟩

/-- A message arrives. -/
def Scene.receive (s : Scene K E R L) (m : Message K E R L) : Scene K E R L :=
  { s with queue := s.queue ++ [m] }

/-- The loop of `SceneDecoder::process()` (scene_decoder.cpp:32-45).  `obj` is the
buffer the reference `objects` was bound to before the loop; `swapBuffers()` exchanges
the roles of the buffers (without copying) but not the reference. -/
def Scene.loop (env : Env K E R L) (obj : Bool) : List (Message K E R L) → Scene K E R L →
    Outcome Unit × Scene K E R L
  | [], s => (.ok (), s)
  | m :: q, s =>
    let r := updateObjectVector env m (s.buf obj)
    let s1 : Scene K E R L := { s with buf := fun b => if b = obj then r.2 else s.buf b }
    match r.1 with
    | .ok _ => Scene.loop env obj q { s1 with front := !s1.front, changed := true, queue := q }
    | .throw .cString => (.throw .cString, s1)
    | .throw _ => Scene.loop env obj q { s1 with queue := q }
    | .ub => (.ub, s1)

/-- `SceneDecoder::process()` (scene_decoder.cpp:29-46). -/
def Scene.process (env : Env K E R L) (s : Scene K E R L) : Outcome Unit × Scene K E R L :=
  Scene.loop env s.front s.queue s

/-- One period: the messages `ms` arrive, then `process()` is called. -/
def Scene.period (env : Env K E R L) (s : Scene K E R L) (ms : List (Message K E R L)) :
    Outcome Unit × Scene K E R L :=
  (ms.foldl Scene.receive s).process env

end Visr.Decoder
