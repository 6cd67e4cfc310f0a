import Verif.CoreRenderer.Model
import Verif.Flow.Spec
import Mathlib.Algebra.Group.Defs

/-!
# Specification: what the renderer plays
-/

namespace Visr.CoreRenderer
open Visr Visr.Flow

/-- A usable configuration: enough decorrelation filters, an output equalisation (if any) with one filter per
loudspeaker and subwoofer, and for every loudspeaker and subwoofer an output channel of its own, with a number between
one and the number of outputs. -/
structure Valid (c : Config) : Prop where
  filters : c.lsp.length ≤ c.filters
  eq : ∀ n, c.eqFilters = some n → n = c.lsp.length + c.subs.length
  distinct : (c.lsp ++ c.subs).Nodup
  range : ∀ ch ∈ c.lsp ++ c.subs, 1 ≤ ch.toNat ∧ ch.toNat ≤ c.nOut

/-- What the contained components do: each maps the signals at its input channels to the signals at its output channels.
`S` is the type of signals. -/
structure Parts (S : Type) where
  objectGain : List S → List S
  objectEq : List S → List S
  filterbank : List S → List S
  vbap : List S → List S
  vbip : List S → List S
  diffuse : List S → List S
  decorrelator : List S → List S
  reverb : List S → List S
  subwoofers : List S → List S
  outputEq : List S → List S
  adjust : List S → List S

/-- Channelwise sum. -/
def plus {S : Type} [Add S] (a b : List S) : List S := List.zipWith (· + ·) a b

/-- The signals `v` at the ports are those of the running renderer with the audio connections `conns`: every port has as
many signals as its width, connected channels carry the same signal, and every component does what it should. -/
structure Running {S : Type} [AddZeroClass S] (c : Config) (conns : List AConn) (parts : Parts S) (v : Port → List S) :
    Prop where
  width : ∀ p, (v p).length = c.width p
  wires : ∀ s i r j, ((s.id, i), (r.id, j)) ∈ pairs conns → (v s)[i]? = (v r)[j]?
  objectGain : v .objectGainOut = parts.objectGain (v .objectGainIn)
  objectEq : v .objectEqOut = parts.objectEq (v .objectEqIn)
  filterbank : v .filterbankOut = parts.filterbank (v .filterbankIn)
  vbap : v .vbapOut = parts.vbap (v .vbapIn)
  vbip : v .vbipOut = parts.vbip (v .vbipIn)
  diffuse : v .diffuseOut = parts.diffuse (v .diffuseIn)
  decorrelator : v .decorrelatorOut = parts.decorrelator (v .decorrelatorIn)
  reverb : v .reverbOut = parts.reverb (v .reverbIn)
  mix : v .mixOut =
    match c.freqDep, c.reverb with
    | false, false => plus (v .mixIn0) (v .mixIn1)
    | true, true => plus (plus (plus (v .mixIn0) (v .mixIn1)) (v .mixIn2)) (v .mixIn3)
    | _, _ => plus (plus (v .mixIn0) (v .mixIn1)) (v .mixIn2)
  subwoofers : v .subwooferOut = parts.subwoofers (v .subwooferIn)
  outputEq : v .outputEqOut = parts.outputEq (v .outputEqIn)
  adjust : v .adjustOut = parts.adjust (v .adjustIn)
  null : ∀ x ∈ v .nullOut, x = 0

section
variable {S : Type} [AddZeroClass S] (c : Config) (parts : Parts S)

/-- The object signals after gain and equalisation. -/
def objects (x : List S) : List S := parts.objectEq (parts.objectGain x)

/-- The panned signals: with frequency-dependent panning, the low-passed object signals (first half of the filterbank
outputs) by VBAP plus the high-passed object signals (second half) by VBIP. -/
def direct (x : List S) : List S :=
  if c.freqDep then
    plus (parts.vbap ((parts.filterbank (objects parts x ++ objects parts x)).take c.nIn))
      (parts.vbip ((parts.filterbank (objects parts x ++ objects parts x)).drop c.nIn))
  else parts.vbap (objects parts x)

/-- Panned, diffuse and reverberant signals together. -/
def mixed (x : List S) : List S :=
  let dry := plus (direct c parts x) (parts.decorrelator (parts.diffuse (objects parts x)))
  if c.reverb then plus dry (parts.reverb (objects parts x)) else dry

/-- The signals of the loudspeakers, followed by those of the subwoofers. -/
def played (x : List S) : List S :=
  let all := mixed c parts x ++ parts.subwoofers (mixed c parts x)
  parts.adjust (if c.eqFilters.isSome then parts.outputEq all else all)

end

/-- What the calculators make of the scene. `V` is the type of parameter values. -/
structure Calculators (V : Type) where
  gain : V → V
  eq : V → V
  vbap : V → V
  vbip : V → V
  diffuse : V → V
  /-- The gains of the higher-order ambisonics objects inserted into the given gains. -/
  allrad : V → V → V

/-- The parameter values of the running renderer: connected ports have the same value, and the calculators do what they
are supposed to. -/
structure Controlled {V : Type} (pconns : List PConn) (f : Calculators V) (p : PName → V) : Prop where
  wires : ∀ a b : PName, ⟨a.id, b.id⟩ ∈ pconns → p b = p a
  gain : p .eqCalcGain = f.gain (p .eqCalcObjects)
  eq : p .eqCalcEq = f.eq (p .eqCalcObjects)
  vbap : p .panVbap = f.vbap (p .panObjects)
  vbip : p .panVbip = f.vbip (p .panObjects)
  diffuse : p .panDiffuse = f.diffuse (p .panObjects)
  allrad : p .allradGainOut = f.allrad (p .allradObjects) (p .allradGainIn)

end Visr.CoreRenderer
