import Verif.SceneLink.Model
import Verif.Encode.Props

/-!
# What a link between two programs promises
-/

namespace Visr.SceneLink

open Visr Visr.ObjectVector Visr.Encode Visr.Decoder

variable {K B : Type} [DecidableEq K]

/-- The scenes that were sent, in order. -/
def scenes : List (Act K B) → List (SceneOf K B)
  | [] => []
  | .send v :: as => v :: scenes as
  | .receive _ :: as => scenes as

/-- All scenes are vectors of objects that messages represent exactly (see `Encodable`). -/
def Sendable (ctx : Ctx K B) (acts : List (Act K B)) : Prop :=
  ∀ v ∈ scenes acts, Ascending v ∧ ∀ o ∈ v, Encodable ctx o

end Visr.SceneLink
