import Verif.ReverbRenderer.Model
import Verif.Wiring.Spec

/-!
# Specification: what the reverberation renderer plays
-/

namespace Visr.ReverbRenderer
open Visr Visr.Flow Visr.Wiring

/-- What the contained components do: each maps the signals at its input channels to the signals at its output channels.
`S` is the type of signals. -/
structure Effects (S : Type) where
  route : List S → List S
  delay : List S → List S
  filter : List S → List S
  pan : List S → List S
  lateDelay : List S → List S
  lateFilter : List S → List S
  decorrelate : List S → List S

/-- The signals of the running renderer. -/
structure Running {S : Type} [Add S] (c : Config) (conns : List AConn) (e : Effects S) (v : String → String → List S) :
    Prop extends Carries (site c) conns v where
  route : v "signalRouting" "out" = e.route (v "signalRouting" "in")
  delay : v "discreteReverbDelay" "out" = e.delay (v "discreteReverbDelay" "in")
  filter : v "discreteReverbReflectionFilters" "out" = e.filter (v "discreteReverbReflectionFilters" "in")
  pan : v "discretePanningMatrix" "out" = e.pan (v "discretePanningMatrix" "in")
  lateDelay : v "lateReverbGainDelay" "out" = e.lateDelay (v "lateReverbGainDelay" "in")
  lateFilter : v "lateReverbFilter" "out" = e.lateFilter (v "lateReverbFilter" "in")
  decorrelate : v "decorrelationFilter" "out" = e.decorrelate (v "decorrelationFilter" "in")
  mix : v "Sum" "out" = plus (v "Sum" "in0") (v "Sum" "in1")

/-- The early part: each reverb object's signal is the input of `reflections` consecutive delays, reflection filters and
panners. -/
def early {S : Type} (c : Config) (e : Effects S) (x : List S) : List S :=
  e.pan (e.filter (e.delay ((e.route x).flatMap fun s => List.replicate c.reflections s)))

/-- The late part: the delayed object signals are filtered, mixed to one signal and decorrelated. -/
def late {S : Type} (e : Effects S) (x : List S) : List S := e.decorrelate (e.lateFilter (e.lateDelay (e.route x)))

/-- What the calculators make of the scene. `V` is the type of parameter values. -/
structure Calculators (V : Type) where
  routing : V → V
  gains : V → V
  delays : V → V
  filters : V → V
  panning : V → V
  lateGains : V → V
  lateDelays : V → V
  late : V → V
  lateFilters : V → V

/-- The parameter values of the running renderer. -/
structure Calculated {V : Type} (c : Config) (pconns : List PConn) (f : Calculators V) (p : String → String → V) : Prop where
  wires : Controlled (site c) pconns p
  routing : p "parameterCalculator" "signalRoutingOut" = f.routing (p "parameterCalculator" "objectInput")
  gains : p "parameterCalculator" "discreteGainOut" = f.gains (p "parameterCalculator" "objectInput")
  delays : p "parameterCalculator" "discreteDelayOut" = f.delays (p "parameterCalculator" "objectInput")
  filters : p "parameterCalculator" "discreteEqOut" = f.filters (p "parameterCalculator" "objectInput")
  panning : p "parameterCalculator" "discretePanningGainOut" = f.panning (p "parameterCalculator" "objectInput")
  lateGains : p "parameterCalculator" "lateGainOut" = f.lateGains (p "parameterCalculator" "objectInput")
  lateDelays : p "parameterCalculator" "lateDelayOut" = f.lateDelays (p "parameterCalculator" "objectInput")
  late : p "parameterCalculator" "lateSubbandOut" = f.late (p "parameterCalculator" "objectInput")
  lateFilters : p "lateReverbCalculator" "lateFilterOutput" = f.lateFilters (p "lateReverbCalculator" "subbandInput")

end Visr.ReverbRenderer
