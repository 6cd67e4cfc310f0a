import Verif.Wiring.Model

/-!
# The reverberation renderer

Models the constructor of `reverbobject::ReverbObjectRenderer` (`src/libreverbobject/reverb_object_renderer.cpp:141-345`):
the contained components with their ports and the connections between them. The processing of the components is the
subject of other areas (`Reverb`, `LateFilter`, `Delivery`, `SignalRouting`, `DelayVector`, `Biquad`, `GainMatrix`,
`FirMatrix`, `Crossfade`).

Not modelled: parsing the configuration, exceptions in the constructors of the components, overflow of the number of
reflections.
-/

namespace Visr.ReverbRenderer
open Visr Visr.Flow Visr.Wiring
open Visr.CoreRenderer (PConfig)

/-- The arguments of the constructor and the entries of the configuration as far as the wiring depends on them
(`reverb_object_renderer.cpp:141-181`): number of object signals, number of regular loudspeakers, `numReverbObjects`,
`discreteReflectionsPerObject`, and the number of filters in the file `lateReverbDecorrelationFilters` (`none`: no file,
the filters are generated). -/
structure Config where
  nIn : Nat
  nL : Nat
  objects : Nat
  reflections : Nat
  fileFilters : Option Nat

/-- `totalDiscreteReflections` (`reverb_object_renderer.cpp:307`). -/
def Config.total (c : Config) : Nat := c.objects * c.reflections

/-- `PointSourceWithReverb::cNumDiscreteReflectionBiquads` (`point_source_with_reverb.hpp:44`). -/
def sections : Nat := 10

/-- Protocols: 0 double buffering, 1 shared data, 2 message queue. Parameter types: 0 object vector, 2 vector, 3 matrix,
4 biquad matrix, 5 signal routing, 6 late reverb parameter, 7 indexed vector (`reverb_parameter_calculator.hpp:150-158`,
`late_reverb_filter_calculator.hpp`, and the headers of the components). -/
def pport (id : Nat) (input : Bool) (protocol type : Nat) (config : PConfig) : PPort := ⟨id, input, protocol, type, config.code⟩

/-- Audio port of sample type `float`. -/
def aport (id : Nat) (input : Bool) (width : Nat) : APort := ⟨id, input, width, 0⟩

/-- `mReverbParameterCalculator` (`reverb_parameter_calculator.cpp:74-82,122-133`). -/
def calculator (c : Config) : Part :=
  { name := "parameterCalculator", audio := [],
    param := [("objectInput", pport 1 true 0 0 .empty), ("signalRoutingOut", pport 2 false 0 5 .empty),
      ("discreteGainOut", pport 3 false 0 2 (.vector (c.reflections * c.objects))),
      ("discreteDelayOut", pport 4 false 0 2 (.vector (c.reflections * c.objects))),
      ("discreteEqOut", pport 5 false 0 4 (.matrix (c.reflections * c.objects) sections)),
      ("discretePanningGainOut", pport 6 false 1 3 (.matrix c.nL (c.reflections * c.objects))),
      ("lateGainOut", pport 7 false 0 2 (.vector c.objects)), ("lateDelayOut", pport 8 false 0 2 (.vector c.objects)),
      ("lateSubbandOut", pport 9 false 2 6 .empty)] }

/-- `mReverbSignalRouting` (`reverb_object_renderer.cpp:237`, `signal_routing.cpp:18-36`). -/
def routing (c : Config) : Part :=
  { name := "signalRouting", audio := [("in", aport 2 true c.nIn), ("out", aport 3 false c.objects)],
    param := [("controlInput", pport 10 true 0 5 .empty)] }

/-- `mDiscreteReverbDelay` (`reverb_object_renderer.cpp:244-247`, `delay_vector.cpp:76-88`). -/
def discreteDelay (c : Config) : Part :=
  { name := "discreteReverbDelay", audio := [("in", aport 4 true c.total), ("out", aport 5 false c.total)],
    param := [("gainInput", pport 11 true 0 2 (.vector c.total)), ("delayInput", pport 12 true 0 2 (.vector c.total))] }

/-- `mDiscreteReverbReflFilters` (`reverb_object_renderer.cpp:248-249`, `biquad_iir_filter.cpp:28-38`). -/
def reflectionFilters (c : Config) : Part :=
  { name := "discreteReverbReflectionFilters", audio := [("in", aport 6 true c.total), ("out", aport 7 false c.total)],
    param := [("eqInput", pport 13 true 0 4 (.matrix c.total sections))] }

/-- `mDiscreteReverbPanningMatrix` (`reverb_object_renderer.cpp:250-252`, `gain_matrix.cpp:31-39`). -/
def panning (c : Config) : Part :=
  { name := "discretePanningMatrix", audio := [("in", aport 8 true c.total), ("out", aport 9 false c.nL)],
    param := [("gainInput", pport 14 true 1 3 (.matrix c.nL c.total))] }

/-- `mLateReverbFilterCalculator` (`reverb_object_renderer.cpp:253-256`, `late_reverb_filter_calculator.cpp:103-104`). -/
def lateCalculator : Part :=
  { name := "lateReverbCalculator", audio := [],
    param := [("subbandInput", pport 15 true 2 6 .empty), ("lateFilterOutput", pport 16 false 2 7 .empty)] }

/-- `mLateReverbGainDelay` (`reverb_object_renderer.cpp:259-265`). -/
def lateGainDelay (c : Config) : Part :=
  { name := "lateReverbGainDelay", audio := [("in", aport 10 true c.objects), ("out", aport 11 false c.objects)],
    param := [("gainInput", pport 17 true 0 2 (.vector c.objects)), ("delayInput", pport 18 true 0 2 (.vector c.objects))] }

/-- `mLateReverbFilter` (`reverb_object_renderer.cpp:267-298`): a crossfading or plain filter matrix with the same ports
(`crossfading_fir_filter_matrix.cpp:50-60`, `fir_filter_matrix.cpp:53-62`). -/
def lateFilter (c : Config) : Part :=
  { name := "lateReverbFilter", audio := [("in", aport 12 true c.objects), ("out", aport 13 false 1)],
    param := [("filterInput", pport 19 true 2 7 .empty)] }

/-- `mLateDiffusionFilter` (`reverb_object_renderer.cpp:300-303`). -/
def decorrelation (c : Config) : Part :=
  { name := "decorrelationFilter", audio := [("in", aport 14 true 1), ("out", aport 15 false c.nL)], param := [] }

/-- `mReverbMix` (`reverb_object_renderer.cpp:158`, `add.cpp:22-40`). -/
def mix (c : Config) : Part :=
  { name := "Sum", audio := [("in0", aport 16 true c.nL), ("in1", aport 17 true c.nL), ("out", aport 18 false c.nL)],
    param := [] }

/-- The ports and components of the renderer (`reverb_object_renderer.cpp:147-158`). The addresses of its own ports are
those that `CoreRenderer` uses for them. -/
def site (c : Config) : Site :=
  { audio := [("in", aport 30 true c.nIn), ("out", aport 31 false c.nL)],
    param := [("objectIn", pport 24 true 0 0 .empty)],
    parts := [calculator c, routing c, discreteDelay c, panning c, lateGainDelay c, mix c, reflectionFilters c,
      lateCalculator, lateFilter c, decorrelation c] }

/-- `discreteFanOut` (`reverb_object_renderer.cpp:307-314`). -/
def fanOut (c : Config) : List Nat := (List.range c.total).map fun i => i / c.reflections

/-- The connection calls (`reverb_object_renderer.cpp:305-342`). -/
def calls (c : Config) : List Stmt :=
  [.audio "" "in" "signalRouting" "in",
   .audioLists "signalRouting" "out" (fanOut c) "discreteReverbDelay" "in" (List.range c.total),
   .audio "discreteReverbDelay" "out" "discreteReverbReflectionFilters" "in",
   .audio "discreteReverbReflectionFilters" "out" "discretePanningMatrix" "in",
   .audio "discretePanningMatrix" "out" "Sum" "in0",
   .audio "signalRouting" "out" "lateReverbGainDelay" "in",
   .audio "lateReverbGainDelay" "out" "lateReverbFilter" "in",
   .audio "lateReverbFilter" "out" "decorrelationFilter" "in",
   .audio "decorrelationFilter" "out" "Sum" "in1",
   .audio "Sum" "out" "" "out",
   .param "" "objectIn" "parameterCalculator" "objectInput",
   .param "parameterCalculator" "signalRoutingOut" "signalRouting" "controlInput",
   .param "parameterCalculator" "discreteGainOut" "discreteReverbDelay" "gainInput",
   .param "parameterCalculator" "discreteDelayOut" "discreteReverbDelay" "delayInput",
   .param "parameterCalculator" "discreteEqOut" "discreteReverbReflectionFilters" "eqInput",
   .param "parameterCalculator" "discretePanningGainOut" "discretePanningMatrix" "gainInput",
   .param "parameterCalculator" "lateGainOut" "lateReverbGainDelay" "gainInput",
   .param "parameterCalculator" "lateDelayOut" "lateReverbGainDelay" "delayInput",
   .param "parameterCalculator" "lateSubbandOut" "lateReverbCalculator" "subbandInput",
   .param "lateReverbCalculator" "lateFilterOutput" "lateReverbFilter" "filterInput"]

/-- The constructor: a filter file with too few filters is rejected (`reverb_object_renderer.cpp:207-210`), then the
components are created and connected. -/
def construct (c : Config) : Outcome Comp :=
  if c.fileFilters.any (fun n => n < c.nL) then .throw .invalidArgument
  else (site c).build (calls c)

end Visr.ReverbRenderer
