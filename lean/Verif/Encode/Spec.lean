import Verif.Encode.Model

/-!
# Specification of scene messages written by the library
-/

namespace Visr.Encode

open Visr Visr.ObjectVector

variable {K B : Type}

/-- The attributes which the class of an object does not have are at their defaults
(the record of the model has the attributes of all classes). -/
structure Plain (env : Env K (List (Section K)) (Room K B) Label) (o : Object K B) : Prop where
  position : o.typ ∉ [.point, .pointDiffuse, .pointExtent, .pointReverb] →
    o.x = env.zero ∧ o.y = env.zero ∧ o.z = env.zero ∧ o.lock = env.zero
  diffuseness : o.typ ∉ [.pointDiffuse, .pointExtent, .channel] → o.diffuseness = env.zero
  extent : o.typ ≠ .pointExtent → o.width = env.zero ∧ o.height = env.zero ∧ o.depth = env.zero
  plane : o.typ ≠ .plane → o.az = env.zero ∧ o.el = env.zero ∧ o.refdist = env.zero
  hoa : o.typ ≠ .hoa → o.order = 0
  channel : o.typ ≠ .channel → o.outputs = []
  reverb : o.typ ≠ .pointReverb → o.reverb = env.reverb0

/-- A label which the message syntax can represent. -/
def GoodLabel (l : Label) : Prop := l ≠ [] ∧ ∀ c ∈ l, isLabelChar c = true

/-- A reverberation which the message syntax represents exactly: the sizes are the
fixed ones and the sub-band values have at most six significant digits. -/
structure GoodRoom (num : Num K) (r : Room K B) : Prop where
  filters : ∀ x ∈ r.reflections, x.filters.length = 10
  levels : r.levels.length = 9 ∧ ∀ x ∈ r.levels, num.six x = x
  attacks : r.attacks.length = 9 ∧ ∀ x ∈ r.attacks, num.six x = x
  decays : r.decays.length = 9 ∧ ∀ x ∈ r.decays, num.six x = x

/-- An object which a scene message represents exactly. -/
structure Encodable (ctx : Ctx K B) (o : Object K B) : Prop where
  plain : Plain ctx.env o
  /-- Known types, without point sources with extent. -/
  typ : o.typ ≠ .extended ∧ o.typ ≠ .pointExtent
  /-- Channel numbers fit into a signed 32-bit integer. -/
  channels : ∀ c ∈ o.channels, c < 2 ^ 31
  /-- Equaliser gains are not tiny unless they are zero. -/
  eq : ∀ s ∈ o.eq, ctx.num.small s.gain = true → s.gain = ctx.num.zero
  hoa : o.typ = .hoa → o.channels.length = (o.order + 1) * (o.order + 1)
  channel : o.typ = .channel → o.channels.length = o.outputs.length ∧ o.outputs ≠ [] ∧
    ∀ c ∈ o.outputs, ∀ l ∈ c, GoodLabel l
  reverb : o.typ = .pointReverb → GoodRoom ctx.num o.reverb

/-- The defaults used by the object classes and by the parsers agree. -/
structure Ctx.Good (ctx : Ctx K B) : Prop where
  zero : ctx.env.zero = ctx.num.zero
  eq0 : ctx.env.eq0 = []

end Visr.Encode
