import Verif.Encode.Model
import Verif.Decoder.SceneModel

/-!
# Sending scenes from one program to another

`/repo/src/librcl/scene_encoder.cpp` in the sending program and `/repo/src/librcl/scene_decoder.cpp` in the receiving one
(`Verif/Decoder/SceneModel.lean`), connected by a network which may lose, delay, repeat and reorder messages, as UDP does.
The sockets are modelled in `Verif/UdpSender` and `Verif/Udp`; here a message that arrives is one that was sent.
-/

namespace Visr.SceneLink

open Visr Visr.ObjectVector Visr.Encode Visr.Decoder

variable {K B : Type} [DecidableEq K]

/-- A scene of the sending program. -/
abbrev SceneOf (K B : Type) := List (Object K B)

/-- A message on the network. -/
abbrev Msg (K B : Type) := Message K (List (Section K)) (Room K B) Label

/-- The messages sent so far and the receiving program. -/
structure Link (K B : Type) where
  sent : List (Msg K B)
  receiver : Scene K (List (Section K)) (Room K B) Label

/-- Nothing was sent, and the receiver was just started. -/
def init : Link K B := ⟨[], Scene.init⟩

/-- What happens next. -/
inductive Act (K B : Type) where
  /-- The sender processes a block with this scene at its input. -/
  | send (scene : SceneOf K B)
  /-- The messages with these numbers arrive, then the receiver processes a block. -/
  | receive (numbers : List Nat)

/-- `SceneEncoder::process()` (`scene_encoder.cpp:31-36`): the scene is encoded, and one message is sent, also if nothing
has changed. -/
def encode (ctx : Ctx K B) (l : Link K B) (scene : SceneOf K B) : Outcome (Link K B) :=
  match encodeObjectVector ctx scene with
  | .ok m => .ok { l with sent := l.sent ++ [m] }
  | .throw e => .throw e
  | .ub => .ub

/-- Messages that arrive, and `SceneDecoder::process()` (`scene_decoder.cpp:29-46`). -/
def decode (ctx : Ctx K B) (l : Link K B) (numbers : List Nat) : Outcome (Link K B) :=
  match l.receiver.period ctx.env (numbers.filterMap fun k => l.sent[k]?) with
  | (.ok _, r) => .ok { l with receiver := r }
  | (.throw e, _) => .throw e
  | (.ub, _) => .ub

/-- One step of the two programs. -/
def step (ctx : Ctx K B) (l : Link K B) : Act K B → Outcome (Link K B)
  | .send v => encode ctx l v
  | .receive ks => decode ctx l ks

/-- A history of the two programs. -/
def run (ctx : Ctx K B) (l : Link K B) : List (Act K B) → Outcome (Link K B)
  | [] => .ok l
  | a :: as =>
    match step ctx l a with
    | .ok l' => run ctx l' as
    | .throw e => .throw e
    | .ub => .ub

end Visr.SceneLink
