import Verif.ObjectEq.Model

/-!
# Specification of levels and equalisers
-/

namespace Visr.ObjectEq
open Visr

variable {K S C : Type}

/-- The object a channel belongs to: the last one, in the order of the object vector, that uses it. -/
def owner (objects : List (Obj K S)) (ch : Nat) : Option (Obj K S) :=
  (objects.filter fun o => ch ∈ o.channels).getLast?

/-- Level of a channel. -/
def levelOf (cfg : Cfg K S C) (objects : List (Obj K S)) (ch : Nat) : K :=
  ((owner objects ch).map (·.level)).getD cfg.zero

/-- Sections of a channel: those of the owner, followed by flat ones. -/
def sectionsOf (cfg : Cfg K S C) (o : Obj K S) : List C :=
  o.eq.map cfg.design ++ List.replicate (cfg.sections - o.eq.length) cfg.flat

/-- Scenes the component is configured for. -/
def Fits (cfg : Cfg K S C) (objects : List (Obj K S)) : Prop :=
  ∀ o ∈ objects, ∀ ch ∈ o.channels, ch < cfg.channels ∧ o.eq.length ≤ cfg.sections

/-- The scene in force: the last scene that was processed, given the scene waiting to be processed. -/
def inForce : Option (List (Obj K S)) → List (Obj K S) → List (Op K S) → List (Obj K S)
  | _, cur, [] => cur
  | _, cur, .scene objects :: ops => inForce (some objects) cur ops
  | none, cur, .process :: ops => inForce none cur ops
  | some objects, _, .process :: ops => inForce none objects ops

/-- Only scenes the component is configured for are sent. -/
def AllFit (cfg : Cfg K S C) (ops : List (Op K S)) : Prop :=
  ∀ op ∈ ops, match op with
    | .scene objects => Fits cfg objects
    | .process => True

/-- The receivers see the levels of a scene, and for each channel used by an object the equaliser of this object. -/
structure Shows (cfg : Cfg K S C) (b : Buf K C) (objects : List (Obj K S)) : Prop where
  gains : b.gains = (List.range cfg.channels).map (levelOf cfg objects)
  eqs : ∀ ch o, owner objects ch = some o → b.eqs[ch]? = some (sectionsOf cfg o)

end Visr.ObjectEq
