import Verif.TypeId.Model

/-!
# Parameter configurations and the parameters created from them

The configuration classes in `/repo/src/libpml`, the constructors of the parameter classes from configurations, the
declarations `DEFINE_PARAMETER_TYPE`, the creation of parameters by protocols, and the check of connected ports
(`/repo/src/librrl/port_utilities.cpp`).

Contents of parameters are modelled where a configuration determines their size; the default-constructed values of all other
classes are one value (`plain`). Failing memory allocation is not modelled.
-/

namespace Visr.ParamConfig
open Visr Visr.TypeId

/-- A configuration object: `EmptyParameterConfig`, `VectorParameterConfig`, `MatrixParameterConfig`,
`InterpolationParameterConfig`, `TimeFrequencyParameterConfig` (DFT bins, channels, frames). -/
inductive Config where
  | empty
  | vector (n : Nat)
  | matrix (rows columns : Nat)
  | interpolation (n : Nat)
  | timeFrequency (bins channels frames : Nat)
  deriving DecidableEq

/-- The classes of configurations. -/
inductive Kind where
  | empty | vector | matrix | interpolation | timeFrequency
  deriving DecidableEq

/-- The dynamic type of a configuration. -/
def Config.kind : Config → Kind
  | .empty => .empty
  | .vector _ => .vector
  | .matrix _ _ => .matrix
  | .interpolation _ => .interpolation
  | .timeFrequency _ _ _ => .timeFrequency

/-- `compare()`: `empty_parameter_config.cpp:26-39`, `vector_parameter_config.cpp:28-41`,
`matrix_parameter_config.cpp:29-42`, `interpolation_parameter.cpp:28-39`, `time_frequency_parameter_config.cpp:33-48`. -/
def compare : Config → Config → Outcome Bool
  | .empty, .empty => .ok true
  | .empty, _ => .throw .invalidArgument
  | .vector n, .vector m => .ok (m == n)
  | .vector _, _ => .throw .invalidArgument
  | .matrix r c, .matrix r' c' => .ok (r' == r && c' == c)
  | .matrix _ _, _ => .throw .invalidArgument
  | .interpolation _, _ => .ok true
  | .timeFrequency b c f, .timeFrequency b' c' f' => .ok (b' == b && c' == c && f' == f)
  | .timeFrequency _ _ _, _ => .throw .invalidArgument

/-- The configuration class of the ports for a parameter class: `DEFINE_PARAMETER_TYPE` in
`filter_routing_parameter.hpp:65-66`, `biquad_parameter.hpp:219-240`, `interpolation_parameter.hpp:72`,
`time_frequency_parameter.hpp:226-227`, `listener_position.hpp:450-452`, `scalar_parameter.hpp:89-95`,
`signal_routing_parameter.hpp:149`, `matrix_parameter.hpp:124-127`, `sparse_gain_routing_parameter.hpp:70-71`,
`string_parameter.hpp:78`, `object_vector.hpp:55`, `indexed_value_parameter.hpp:93-95`, `vector_parameter.hpp:109-112`,
`panning_matrix_parameter.hpp:157`, `late_reverb_parameter.hpp:71`. -/
def declared : Cls → Kind
  | .biquadFloat | .biquadDouble | .biquadListFloat | .biquadListDouble | .biquadMatrixFloat | .biquadMatrixDouble
  | .matrixFloat | .matrixDouble | .matrixComplexFloat | .matrixComplexDouble | .panningMatrix => .matrix
  | .vectorFloat | .vectorDouble | .vectorComplexFloat | .vectorComplexDouble => .vector
  | .interpolation => .interpolation
  | .timeFrequencyFloat | .timeFrequencyDouble => .timeFrequency
  | .filterRouting | .filterRoutingList | .listenerPosition | .bool | .int | .uint | .float | .double | .complexFloat
  | .complexDouble | .signalRouting | .sparseGainRouting | .sparseGainRoutingList | .string | .objectVector
  | .indexedVectorFloat | .indexedVectorDouble | .indexedString | .lateReverb => .empty

/-- The content of a parameter; `none` is a default element (zero, a flat biquad, an invalid index with weight zero). -/
inductive Value where
  | plain
  | vector (elements : List (Option Nat))
  | matrix (columns : Nat) (rows : List (List (Option Nat)))
  | biquads (rows : List (List (Option Nat)))
  | interpolation (interpolants : List (Option Nat))
  | timeFrequency (channels columns : Nat) (rows : List (List (Option Nat)))
  | panning (columns : Nat) (rows : List (List (Option Nat)))
  deriving DecidableEq

/-- Rows and columns of default elements. -/
def grid (rows columns : Nat) : List (List (Option Nat)) := List.replicate rows (List.replicate columns none)

/-- The constructors from `ParameterConfigBase const &`: a failed `dynamic_cast` is reported as `std::bad_cast`, if not
translated (`biquad_parameter.cpp:20-33,48-61,77-90`, `filter_routing_parameter.cpp:14-21,33-40`,
`sparse_gain_routing_parameter.cpp:11-18,28-35`), or the configuration is not looked at
(`signal_routing_parameter.cpp:35-39`, `late_reverb_parameter.cpp:16-19`). Others: `matrix_parameter.cpp:53-63`,
`vector_parameter.cpp:29-38`, `interpolation_parameter.cpp:46-54`, `time_frequency_parameter.cpp:31-43`,
`listener_position.cpp:25-35`, `scalar_parameter.cpp:24-34`, `string_parameter.cpp:16-26`, `object_vector.cpp:15-18`,
`indexed_value_parameter.cpp:24-34`, `panning_matrix_parameter.cpp:133-142`. -/
def construct : Cls → Config → Outcome Value
  | .signalRouting, _ | .lateReverb, _ => .ok .plain
  | .filterRouting, cfg | .filterRoutingList, cfg | .sparseGainRouting, cfg | .sparseGainRoutingList, cfg
  | .biquadFloat, cfg | .biquadDouble, cfg =>
    match cfg with
    | .empty => .ok .plain
    | _ => .throw .invalidArgument
  | .biquadListFloat, cfg | .biquadListDouble, cfg =>
    match cfg with
    | .vector n => .ok (.vector (List.replicate n none))
    | _ => .throw .invalidArgument
  | .biquadMatrixFloat, cfg | .biquadMatrixDouble, cfg =>
    match cfg with
    | .matrix r c => .ok (.biquads (grid r c))
    | _ => .throw .invalidArgument
  | .matrixFloat, cfg | .matrixDouble, cfg | .matrixComplexFloat, cfg | .matrixComplexDouble, cfg =>
    match cfg with
    | .matrix r c => .ok (.matrix c (grid r c))
    | _ => .throw .badCast
  | .panningMatrix, cfg =>
    match cfg with
    | .matrix r c => .ok (.panning c (grid r c))
    | _ => .throw .badCast
  | .vectorFloat, cfg | .vectorDouble, cfg | .vectorComplexFloat, cfg | .vectorComplexDouble, cfg =>
    match cfg with
    | .vector n => .ok (.vector (List.replicate n none))
    | _ => .throw .badCast
  | .interpolation, cfg =>
    match cfg with
    | .interpolation n => .ok (.interpolation (List.replicate n none))
    | _ => .throw .badCast
  | .timeFrequencyFloat, cfg | .timeFrequencyDouble, cfg =>
    match cfg with
    | .timeFrequency b c f => .ok (.timeFrequency c b (grid (f * c) b))
    | _ => .throw .badCast
  | .listenerPosition, cfg | .bool, cfg | .int, cfg | .uint, cfg | .float, cfg | .double, cfg | .complexFloat, cfg
  | .complexDouble, cfg | .string, cfg | .objectVector, cfg | .indexedVectorFloat, cfg | .indexedVectorDouble, cfg
  | .indexedString, cfg =>
    match cfg with
    | .empty => .ok .plain
    | _ => .throw .badCast

/-- `ParameterFactory::create()` (`parameter_factory.cpp:56-67`) with the given registrations. -/
def createFrom (tab : Registry.PTable Cls) (type : Nat) (cfg : Config) : Outcome Value :=
  match Registry.pcreate tab type with
  | .ok c => construct c cfg
  | .throw e => .throw e
  | .ub => .ub

/-- The registrations after the initialisation of both libraries (see C89). -/
def factory (signed : Bool) : Registry.PTable Cls :=
  Registry.ptable (registrations signed pmlClasses ++ registrations signed panningClasses)

/-- `ParameterFactory::create()` after the initialisation of both libraries. -/
def create (signed : Bool) (type : Nat) (cfg : Config) : Outcome Value := createFrom (factory signed) type cfg

/-- The parameters a protocol contains after its construction (`double_buffering_protocol.cpp:17-23`,
`shared_data_protocol.cpp:16-21`, `message_queue_protocol.cpp:15-20`), where `one` is the outcome of every call of
`ParameterFactory::create()` in it. -/
def contentFrom (p : Proto) (one : Outcome Value) : Outcome (List Value) :=
  match p with
  | .doubleBuffering =>
    match one with
    | .ok back =>
      match one with
      | .ok front => .ok [back, front]
      | .throw e => .throw e
      | .ub => .ub
    | .throw e => .throw e
    | .ub => .ub
  | .sharedData =>
    match one with
    | .ok v => .ok [v]
    | .throw e => .throw e
    | .ub => .ub
  | .messageQueue => .ok []

/-- The parameters a protocol contains after its construction, with the registered classes. -/
def protocolContent (signed : Bool) (p : Proto) (type : Nat) (cfg : Config) : Outcome (List Value) :=
  contentFrom p (create signed type cfg)

/-- A parameter port. -/
structure Port where
  protocol : Proto
  cls : Cls
  config : Config

/-- `checkParameterPortCompatibility()` (`port_utilities.cpp:50-97`). -/
def compatible (signed : Bool) (s r : Port) : Bool :=
  if s.protocol ≠ r.protocol ∨ s.cls.id signed ≠ r.cls.id signed then false
  else match compare s.config r.config with
    | .ok b => b
    | _ => false

/-- A connection of two ports: the check, and the contents of the protocol, which is created with the configuration of the
sender (`audio_signal_flow.cpp:454-500`). -/
def connect (signed : Bool) (s r : Port) : Outcome (List Value) :=
  if compatible signed s r then protocolContent signed s.protocol (s.cls.id signed).toNat s.config
  else .throw .runtimeError

/-- `operator=` of the parameter classes: matrices (`matrix_parameter.cpp:76-81`, `basic_matrix.hpp:145-169`) and vectors
(`vector_parameter.cpp:53-61`) keep their size, panning matrices are resized with exchanged dimensions
(`panning_matrix_parameter.cpp:155-168`), all others take the size of the source. -/
def assignSame : Value → Value → Outcome Value
  | .matrix c rows, .matrix c' rows' =>
    if rows.length ≠ rows'.length ∨ c ≠ c' then .throw .invalidArgument else .ok (.matrix c' rows')
  | .panning c rows, .panning c' rows' =>
    let _ := c
    let _ := rows
    if c' ≠ rows'.length then .throw .invalidArgument else .ok (.panning c' rows')
  | _, v => .ok v

/-- `VectorParameter::operator=`. -/
def assignVector : Value → Value → Outcome Value
  | .vector l, .vector l' => if l.length ≠ l'.length then .throw .outOfRange else .ok (.vector l')
  | _, v => .ok v

/-- `TypedParameterBase::assign()` (`typed_parameter_base.hpp:65-73`). -/
def assign (c d : Cls) (v w : Value) : Outcome Value :=
  if c ≠ d then .throw .invalidArgument
  else match c with
    | .vectorFloat | .vectorDouble | .vectorComplexFloat | .vectorComplexDouble => assignVector v w
    | _ => assignSame v w

end Visr.ParamConfig
