import Verif.ArrayConfig.Model
import Mathlib.Data.List.Forall2

/-!
# What a loudspeaker array configuration means

The meaning of the nodes of a configuration, which configurations are acceptable, and
what an array loaded from a configuration must contain.  Nothing here refers to the
functions of the model; only the data types and the accessors are shared.
-/

namespace Visr.ArrayConfig
open Visr

variable {K : Type}

/-- `n` is the text `t` without the blanks around it. -/
def Stripped (t n : Id) : Prop :=
  ∃ l r, t = l ++ n ++ r ∧ (∀ c ∈ l ++ r, c = ' ' ∨ c = '\t') ∧
    ∀ c, (n.head? = some c ∨ n.getLast? = some c) → c ≠ ' ' ∧ c ≠ '\t'

/-- The attribute is present and denotes the name `n`. -/
def HasName (t : Option Id) (n : Id) : Prop := ∃ s, t = some s ∧ Stripped s n

/-- An admissible name: not empty, of letters, digits and some punctuation. -/
def ValidName (n : Id) : Prop :=
  n ≠ [] ∧ ∀ c ∈ n, c.isAlphanum = true ∨ c ∈ ['@', '&', '(', ')', '+', '/', ':', '_', '-']

/-- The number is not given, or not readable. -/
def Absent {α : Type*} (e : Entry α) : Prop := ∀ v, e ≠ .val v

/-- The array is two-dimensional. -/
def Planar (cfg : Config K) : Prop := cfg.dimension = some ['2']

/-- The third coordinate: it may be left out of two-dimensional configurations. -/
inductive IsHeight [Zero K] (planar : Prop) : Entry K → K → Prop
  | given (z : K) : IsHeight planar (.val z) z
  | omitted (e : Entry K) : planar → Absent e → IsHeight planar e 0

/-- The position given by exactly one coordinate node. -/
inductive IsPosition [Zero K] (cv : Conv K) (planar : Prop) (inf : Bool) : Coord K → XYZ K → Prop
  | cart (x y z : K) (e : Entry K) : IsHeight planar e z →
      IsPosition cv planar inf ⟨[⟨.val x, .val y, e⟩], []⟩ ⟨x, y, z, inf⟩
  | polar (az el r : K) (e : Entry K) : IsHeight planar e el →
      IsPosition cv planar inf ⟨[], [⟨.val az, e, .val r⟩]⟩
        ⟨(cv.polar az el r).1, (cv.polar az el r).2.1, (cv.polar az el r).2.2, inf⟩

/-- The gain adjustment: given on a linear or a logarithmic scale, or one. -/
inductive IsGain [One K] (cv : Conv K) (n : Adjust K) : K → Prop
  | linear (g : K) : n.gain = .val g → Absent n.gainDB → IsGain cv n g
  | dB (d : K) : Absent n.gain → n.gainDB = .val d → IsGain cv n (cv.dB d)
  | default : Absent n.gain → Absent n.gainDB → IsGain cv n 1

/-- The delay adjustment: given or zero. -/
inductive IsDelay [Zero K] (n : Adjust K) : K → Prop
  | given (d : K) : n.delay = .val d → IsDelay n d
  | default : Absent n.delay → IsDelay n 0

/-- The coefficients of a biquad section, normalised by the optional `a0`. -/
def IsSection [Div K] [One K] (s : Section K) (c : Biquad.Coef K) : Prop :=
  ∃ a0 a1 a2 b0 b1 b2, (s.a0 = .val a0 ∨ (Absent s.a0 ∧ a0 = 1)) ∧ s.a1 = .val a1 ∧
    s.a2 = .val a2 ∧ s.b0 = .val b0 ∧ s.b1 = .val b1 ∧ s.b2 = .val b2 ∧
    c = ⟨b0 / a0, b1 / a0, b2 / a0, a1 / a0, a2 / a0⟩

/-- The filter referred to by an optional `eq` attribute: that of the first specification
of this name, or no filter. -/
def IsFilter [Div K] [One K] (e : EqConfig K) (eq : Option Id) (f : List (Biquad.Coef K)) : Prop :=
  (eq = none ∧ f = []) ∨
    ∃ name before s after, eq = some name ∧ e.specs = before ++ s :: after ∧
      s.name = some name ∧ (∀ s' ∈ before, s'.name ≠ some name) ∧
      List.Forall₂ IsSection s.sections f

/-- The row of the equalisation matrix: the sections of the filter followed by sections that
leave the signal unchanged. -/
def IsEqRow [Zero K] [Div K] [One K] (e : EqConfig K) (eq : Option Id)
    (row : List (Biquad.Coef K)) : Prop :=
  ∃ n f, e.numberOfBiquads = .val n ∧ IsFilter e eq f ∧ f.length ≤ n ∧
    row = f ++ List.replicate (n - f.length) ⟨1, 0, 0, 0, 0⟩

/-- All numbers and names of the equalisation section can be read. -/
def EqReadable [Div K] [One K] (e : EqConfig K) : Prop :=
  (∃ n, e.numberOfBiquads = .val n) ∧
    ∀ s ∈ e.specs, (∃ name, s.name = some name) ∧ ∃ f, List.Forall₂ IsSection s.sections f

/-- A text naming a list of items: the items separated by one or more commas. -/
inductive Separated : List Char → List Id → Prop
  | one (n : Id) : n ≠ [] → ',' ∉ n → Separated n [n]
  | more (n : Id) (k : Nat) (rest : List Char) (ns : List Id) : n ≠ [] → ',' ∉ n →
      Separated rest ns → Separated (n ++ List.replicate (k + 1) ',' ++ rest) (n :: ns)

/-- The white-space characters. -/
def White (c : Char) : Prop :=
  c = ' ' ∨ c = '\t' ∨ c = '\n' ∨ c = '\r' ∨ c = '\x0b' ∨ c = '\x0c'

instance (c : Char) : Decidable (White c) := by unfold White; infer_instance

/-- The names and weights assigned to a subwoofer. -/
def IsAssignment [One K] (s : Sub K) (ps : List (Id × K)) : Prop :=
  ∃ text, s.assigned = some text ∧
    Separated (text.filter fun c => !decide (White c)) (ps.map Prod.fst) ∧
    ((s.weights = .missing ∧ ∀ p ∈ ps, p.2 = 1) ∨ s.weights = .val (ps.map Prod.snd))

/-- The name and the linear gain of a route. -/
def IsRoute (cv : Conv K) (r : Route K) (p : Id × K) : Prop :=
  HasName r.lspId p.1 ∧ ∃ d, r.gainDB = .val d ∧ p.2 = cv.dB d

/-- `g` is the gain last assigned to the name, or zero without an assignment. -/
def LastGain [Zero K] (ps : List (Id × K)) (name : Id) (g : K) : Prop :=
  (∃ before after, ps = before ++ (name, g) :: after ∧ ∀ q ∈ after, q.1 ≠ name) ∨
    ((∀ q ∈ ps, q.1 ≠ name) ∧ g = 0)

/-- `name` is the name of a regular loudspeaker. -/
def Regular (cfg : Config K) (name : Id) : Prop :=
  ∃ l ∈ cfg.loudspeakers, HasName l.id name

/-- `name` is the name of a virtual loudspeaker. -/
def Virtual (cfg : Config K) (name : Id) : Prop :=
  ∃ v ∈ cfg.virtuals, HasName v.id name

/-- The configuration is acceptable. -/
structure WellFormed [Zero K] [One K] [Div K] (cv : Conv K) (cfg : Config K) : Prop where
  dimension : cfg.dimension = none ∨ cfg.dimension = some ['2'] ∨ cfg.dimension = some ['3']
  /-- Every loudspeaker, regular or virtual, has an admissible name of its own. -/
  names : ∃ names, List.Forall₂ HasName
      (cfg.loudspeakers.map (·.id) ++ cfg.virtuals.map (·.id)) names ∧
    names.Nodup ∧ ∀ n ∈ names, ValidName n
  /-- Loudspeakers and subwoofers have channels of their own, counted from one for the
  loudspeakers. -/
  channels : ∃ cs ss, List.Forall₂ (fun (l : Lsp K) c => l.channel = .val c) cfg.loudspeakers cs ∧
    List.Forall₂ (fun (s : Sub K) c => s.channel = .val c) cfg.subwoofers ss ∧
    (cs ++ ss).Nodup ∧ ∀ c ∈ cs, 1 ≤ c
  positions : ∀ c, (c ∈ cfg.loudspeakers.map (·.coord) ∨ c ∈ cfg.virtuals.map (·.coord)) →
    ∃ p, IsPosition cv (Planar cfg) (cfg.infinite.getD false) c p
  gains : ∀ n, (n ∈ cfg.loudspeakers.map (·.adjust) ∨ n ∈ cfg.subwoofers.map (·.adjust)) →
    ∃ g, IsGain cv n g
  /-- Virtual loudspeakers are routed to regular loudspeakers. -/
  routes : ∀ v ∈ cfg.virtuals, ∀ r ∈ v.routes, ∃ p, IsRoute cv r p ∧ Regular cfg p.1
  /-- Triplets consist of existing loudspeakers. -/
  triplets : ∀ t ∈ cfg.triplets,
    (∃ n, HasName t.l1 n ∧ (Regular cfg n ∨ Virtual cfg n)) ∧
    (∃ n, HasName t.l2 n ∧ (Regular cfg n ∨ Virtual cfg n)) ∧
    (¬ Planar cfg → ∃ n, HasName t.l3 n ∧ (Regular cfg n ∨ Virtual cfg n))
  /-- Subwoofers are fed from regular loudspeakers. -/
  subwoofers : ∀ s ∈ cfg.subwoofers, ∃ ps, IsAssignment s ps ∧ ∀ p ∈ ps, Regular cfg p.1
  /-- There is at most one equalisation section, it is readable, and contains what the
  loudspeakers and subwoofers refer to. -/
  equalisation : cfg.eqConfigs = [] ∨ ∃ e, cfg.eqConfigs = [e] ∧ EqReadable e ∧
    ∀ eq, (eq ∈ cfg.loudspeakers.map (·.eq) ∨ eq ∈ cfg.subwoofers.map (·.eq)) →
      ∃ row, IsEqRow e eq row

/-- Row `i` of the equalisation matrix of the array is the one asked for by an `eq`
attribute. -/
def EqDescribed [Zero K] [One K] [Div K] (cfg : Config K) (a : Arr K) (i : Nat)
    (eq : Option Id) : Prop :=
  (cfg.eqConfigs = [] ∧ a.eqs = none) ∨
    ∃ e m row, cfg.eqConfigs = [e] ∧ a.eqs = some m ∧ m[i]? = some row ∧ IsEqRow e eq row

/-- What the array says about a regular loudspeaker. -/
structure LspDescribed [Zero K] [One K] [Div K] (cv : Conv K) (cfg : Config K) (a : Arr K)
    (l : Lsp K) (name : Id) (c i : Nat) : Prop where
  index : a.indexOfId name = .ok i
  id : a.idOfIndex i = .ok name
  channel : a.channelOf i = .ok c
  position : ∃ p, a.position[i]? = some p ∧
    IsPosition cv (Planar cfg) (cfg.infinite.getD false) l.coord p
  gain : ∃ g, a.gainAdj[i]? = some g ∧ IsGain cv l.adjust g
  delay : ∃ d, a.delayAdj[i]? = some d ∧ IsDelay l.adjust d
  eq : EqDescribed cfg a i l.eq

/-- The array is the one described by the configuration. -/
structure Describes [Zero K] [One K] [Div K] (cv : Conv K) (cfg : Config K) (a : Arr K) : Prop where
  is2D : a.is2D = true ↔ Planar cfg
  isInfinite : a.isInfinite = true ↔ cfg.infinite = .val true
  sizes : a.channel.length = cfg.loudspeakers.length ∧
    a.position.length = cfg.loudspeakers.length + cfg.virtuals.length ∧
    a.gainAdj.length = cfg.loudspeakers.length + cfg.subwoofers.length ∧
    a.delayAdj.length = cfg.loudspeakers.length + cfg.subwoofers.length ∧
    a.subChannels.length = cfg.subwoofers.length
  /-- The loudspeakers are ordered by their channels. -/
  ordered : a.channel.Pairwise (· < ·)
  regular : ∀ l ∈ cfg.loudspeakers, ∀ name c, HasName l.id name → l.channel = .val c →
    ∃ i, LspDescribed cv cfg a l name c i
  /-- The virtual loudspeakers follow in the order of the file. -/
  virtuals : ∀ (k : Nat) (v : Virt K) name, cfg.virtuals[k]? = some v → HasName v.id name →
    a.indexOfId name = .ok (cfg.loudspeakers.length + k) ∧
    a.idOfIndex (cfg.loudspeakers.length + k) = .ok name ∧
    ∃ p, a.position[cfg.loudspeakers.length + k]? = some p ∧
      IsPosition cv (Planar cfg) (cfg.infinite.getD false) v.coord p
  /-- The re-routing matrix contains the gains of the routes. -/
  routing : ∀ (k : Nat) (v : Virt K), cfg.virtuals[k]? = some v → ∃ ps, List.Forall₂ (IsRoute cv) v.routes ps ∧
    ∀ name j, Regular cfg name → a.indexOfId name = .ok j →
      ∃ (row : List K) (g : K), a.reRouting[k]? = some row ∧ row[j]? = some g ∧ LastGain ps name g
  /-- No other ids are known. -/
  noOther : ∀ name i, a.indexOfId name = .ok i → Regular cfg name ∨ Virtual cfg name
  triplets : List.Forall₂ (fun (t : Triplet) x =>
      (∃ n, HasName t.l1 n ∧ a.indexOfId n = .ok x.1) ∧
      (∃ n, HasName t.l2 n ∧ a.indexOfId n = .ok x.2.1) ∧
      ((Planar cfg ∧ x.2.2 = none) ∨
        (¬ Planar cfg ∧ ∃ n i, HasName t.l3 n ∧ a.indexOfId n = .ok i ∧ x.2.2 = some i)))
    cfg.triplets a.triplets
  subwoofers : ∀ (k : Nat) (s : Sub K), cfg.subwoofers[k]? = some s →
    (∃ c, s.channel = .val c ∧ a.subChannels[k]? = some c) ∧
    (∃ ps, IsAssignment s ps ∧ ∀ name j, Regular cfg name → a.indexOfId name = .ok j →
      ∃ (row : List K) (g : K), a.subGains[k]? = some row ∧ row[j]? = some g ∧ LastGain ps name g) ∧
    (∃ g, a.gainAdj[cfg.loudspeakers.length + k]? = some g ∧ IsGain cv s.adjust g) ∧
    (∃ d, a.delayAdj[cfg.loudspeakers.length + k]? = some d ∧ IsDelay s.adjust d) ∧
    EqDescribed cfg a (cfg.loudspeakers.length + k) s.eq

/-- No route and no subwoofer refers to a virtual loudspeaker. -/
structure RegularReferences [One K] (cfg : Config K) : Prop where
  routes : ∀ v ∈ cfg.virtuals, ∀ r ∈ v.routes, ∀ n, HasName r.lspId n → ¬ Virtual cfg n
  subwoofers : ∀ s ∈ cfg.subwoofers, ∀ text names, s.assigned = some text →
    Separated (text.filter fun c => !decide (White c)) names → ∀ n ∈ names, ¬ Virtual cfg n

/-- The ids of the regular loudspeakers are written without blanks around them. -/
def Unpadded (cfg : Config K) : Prop :=
  ∀ l ∈ cfg.loudspeakers, ∀ t, l.id = some t → Stripped t t

end Visr.ArrayConfig
