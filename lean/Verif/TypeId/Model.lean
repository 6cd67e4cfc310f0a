import Verif.Registry.Model

/-!
# Model of the identifiers of parameter types and communication protocols

Models `/repo/src/libvisr/detail/compile_time_hash_fnv1.hpp`, the names and identifiers of the parameter classes and
protocols in `/repo/src/libpml`, `/repo/src/libpanningdsp` and `/repo/src/libreverbobject`, and the registrations of
`/repo/src/libpml/initialise_parameter_library.cpp` and `/repo/src/libpanningdsp/initialise_parameter_library.cpp`.
-/

namespace Visr.TypeId

/-- A value of type `char`. -/
abbrev Byte := BitVec 8

/-- `*s` converted to `uint64_t` (`compile_time_hash_fnv1.hpp:43-44`): `char` is signed or unsigned, depending on the
platform. -/
def widen (signed : Bool) (c : Byte) : BitVec 64 :=
  if signed then c.signExtend 64 else c.zeroExtend 64

/-- `fnv1` (`compile_time_hash_fnv1.hpp:35-48`) on the characters before the terminating zero. -/
def fnv1 (signed : Bool) (h : BitVec 64) : List Byte → BitVec 64
  | [] => h
  | c :: s => fnv1 signed ((h * 1099511628211#64) ^^^ widen signed c) s

/-- The part of an array which is a string: all before the first zero (`compile_time_hash_fnv1.hpp:42`). -/
def cString (s : List Byte) : List Byte := s.takeWhile (· != 0)

/-- `compileTimeHashFNV1` (`compile_time_hash_fnv1.hpp:25-30`). -/
def hash (signed : Bool) (s : List Byte) : BitVec 64 := fnv1 signed 14695981039346656037#64 (cString s)

/-- The parameter classes of the library. -/
inductive Cls where
  | filterRouting | filterRoutingList
  | biquadFloat | biquadDouble | biquadListFloat | biquadListDouble | biquadMatrixFloat | biquadMatrixDouble
  | interpolation
  | timeFrequencyFloat | timeFrequencyDouble
  | listenerPosition
  | bool | int | uint | float | double | complexFloat | complexDouble
  | signalRouting
  | matrixFloat | matrixDouble | matrixComplexFloat | matrixComplexDouble
  | sparseGainRouting | sparseGainRoutingList
  | string
  | objectVector
  | indexedVectorFloat | indexedVectorDouble | indexedString
  | vectorFloat | vectorDouble | vectorComplexFloat | vectorComplexDouble
  | panningMatrix
  | lateReverb
  deriving DecidableEq, Repr

/-- The string from which the identifier of a class is calculated: `filter_routing_parameter.hpp:29,47`,
`biquad_parameter.hpp:43-97`, `interpolation_parameter.hpp:54`, `time_frequency_parameter.hpp:32-36`,
`listener_position.hpp:32`, `scalar_parameter.hpp:28-51`, `signal_routing_parameter.hpp:32`, `matrix_parameter.hpp:29-42`,
`sparse_gain_routing_parameter.hpp:35,51`, `string_parameter.hpp:23`, `object_vector.hpp:26`,
`indexed_value_parameter.hpp:29-33`, `vector_parameter.hpp:29-38`, `panning_matrix_parameter.hpp:28`,
`late_reverb_parameter.hpp:28`. -/
def Cls.name : Cls → List Char
  | .filterRouting => "FilterRoutingParameter".toList
  | .filterRoutingList => "FilterRoutingListParameter".toList
  | .biquadFloat => "BiquadCoefficientFloat".toList
  | .biquadDouble => "BiquadCoefficientDouble".toList
  | .biquadListFloat => "BiquadCoefficientListFloat".toList
  | .biquadListDouble => "BiquadCoefficientListDouble".toList
  | .biquadMatrixFloat => "BiquadFloatMatrix".toList
  | .biquadMatrixDouble => "BiquadDoubleMatrix".toList
  | .interpolation => "InterpolationParameter".toList
  | .timeFrequencyFloat => "TimeFrequencyParameterFloat".toList
  | .timeFrequencyDouble => "TimeFrequencyParameterDouble".toList
  | .listenerPosition => "ListenerPosition".toList
  | .bool => "Boolean".toList
  | .int => "Integer".toList
  | .uint => "UnsignedInteger".toList
  | .float => "Float".toList
  | .double => "Double".toList
  | .complexFloat => "ComplexFloat".toList
  | .complexDouble => "ComplexDouble".toList
  | .signalRouting => "SignalRouting".toList
  | .matrixFloat => "FloatMatrix".toList
  | .matrixDouble => "DoubleMatrix".toList
  | .matrixComplexFloat => "ComplexFloatMatrix".toList
  | .matrixComplexDouble => "ComplexDoubleMatrix".toList
  | .sparseGainRouting => "SparseGainRouting".toList
  | .sparseGainRoutingList => "SparseGainRoutingLIst".toList
  | .string => "String".toList
  | .objectVector => "ObjectVector".toList
  | .indexedVectorFloat => "IndexedFloatVector".toList
  | .indexedVectorDouble => "IndexedDoubleVector".toList
  | .indexedString => "IndexedString".toList
  | .vectorFloat => "FloatVector".toList
  | .vectorDouble => "DoubleVector".toList
  | .vectorComplexFloat => "ComplexFloatVector".toList
  | .vectorComplexDouble => "ComplexDoubleVector".toList
  | .panningMatrix => "panningdsp::PanningMatrixParameter".toList
  | .lateReverb => "reverbobject::LateReverbParameter".toList

/-- The communication protocols of the library. -/
inductive Proto where
  | doubleBuffering | messageQueue | sharedData
  deriving DecidableEq, Repr

/-- `sProtocolName` (`double_buffering_protocol.hpp:128`, `message_queue_protocol.hpp:107`, `shared_data_protocol.hpp:80`). -/
def Proto.name : Proto → List Char
  | .doubleBuffering => "DoubleBuffering".toList
  | .messageQueue => "MessageQueue".toList
  | .sharedData => "SharedData".toList

/-- The bytes of a literal of ASCII characters. -/
def bytes (s : List Char) : List Byte := s.map fun c => BitVec.ofNat 8 c.toNat

/-- `staticType()` of a parameter class. -/
def Cls.id (signed : Bool) (c : Cls) : BitVec 64 := hash signed (bytes c.name)

/-- `staticType()` of a protocol (`communication_protocol_type.hpp:17-20`). -/
def Proto.id (signed : Bool) (p : Proto) : BitVec 64 := hash signed (bytes p.name)

/-- The classes of the registrar in `initialiseParameterLibrary()` in their order
(`libpml/initialise_parameter_library.cpp:35-77`; the list there names `ListenerPosition` twice). -/
def pmlClasses : List Cls :=
  [.biquadMatrixFloat, .biquadMatrixDouble, .filterRouting, .filterRoutingList, .indexedVectorDouble, .indexedVectorFloat,
    .indexedString, .interpolation, .listenerPosition, .matrixFloat, .matrixDouble, .matrixComplexFloat,
    .matrixComplexDouble, .objectVector, .listenerPosition, .bool, .int, .uint, .float, .double, .complexFloat,
    .complexDouble, .signalRouting, .sparseGainRoutingList, .sparseGainRouting, .string, .timeFrequencyFloat,
    .timeFrequencyDouble, .vectorFloat, .vectorDouble, .vectorComplexFloat, .vectorComplexDouble]

/-- The classes of the registrar of the panning library (`libpanningdsp/initialise_parameter_library.cpp:16-19`). -/
def panningClasses : List Cls := [.panningMatrix]

/-- The calls of the constructor of `ParameterRegistrar`: base classes are constructed first, so that the classes are registered
from the last to the first (`parameter_factory.hpp:208-212`). -/
def registrations (signed : Bool) (cs : List Cls) : List (Registry.POp Cls) :=
  cs.reverse.map fun c => .register (c.id signed).toNat c

/-- The calls of the destructor of `ParameterRegistrar`: the classes are unregistered from the first to the last
(`parameter_factory.hpp:219-222`). -/
def unregistrations (signed : Bool) (cs : List Cls) : List (Registry.POp Cls) :=
  cs.map fun c => .unregister (c.id signed).toNat

end Visr.TypeId
