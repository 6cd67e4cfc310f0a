# Formal model of VISR in Lean 4 – design

## Trusted base

* Lean 4.33.0's kernel. The only axioms any theorem depends on are Lean's standard ones:
  `propext`, `Classical.choice`, `Quot.sound` (some theorems use fewer).
* No `sorry`, no `native_decide`, no `bv_decide`, no axioms of our own.
* The reading of the C++ sources: every definition of the model cites the file and lines it models.
  Nothing is compiled or executed; the link between model and code is the reading.

## Conventions of the model

* Outcomes. A C++ operation that may throw, or that reaches undefined behaviour for some arguments,
  returns `Outcome α = ok a | throw e | ub` (`Verif/Outcome.lean`); where state may have changed before the exception,
  the model returns the state next to the outcome.
* Numbers. `std::size_t` is modelled by `Nat` and `int` by `Int` (no wrap-around) unless a comment says otherwise.
  Audio samples and gains (`float`/`double`) are modelled by an arbitrary field (or commutative ring, or
  `ℝ` where square roots/orders are needed): rounding, overflow, NaN and infinities are NOT modelled.
* FFT. The theorems about convolvers assume the contract of an FFT (`Convolver.IsDft`: it computes the discrete Fourier
  transform). For the default library, KISS FFT, which the repository contains, the contract is a theorem about a model of
  its code (`KissFft`, C94); for FFTS it remains an assumption, and the IPP wrapper does not meet it (C93).
* Buffers reached through pointers are modelled as finite sequences or total functions on indices plus explicit bounds;
  out-of-bounds accesses are `ub` where the property is about them.
* What is modelled and what is not is listed file by file below.

<!-- coverage begin -->
## Which parts of the code are modelled, and which are not

The table lists, per area of the model, the files of `/repo/src` whose functions its definitions cite.
A cited file is modelled in the functions (and lines) named by the citations, not necessarily as a whole;
the simplifications are in the comments of the definitions.

| area (`lean/Verif/…`) | files of `/repo/src` |
|---|---|
| AllRad | libefl/: matrix_functions.cpp; libpanning/: AllRAD.cpp; librcl/: hoa_allrad_gain_calculator.cpp |
| Allocator | libobjectmodel/: object.hpp; librbbl/: object_channel_allocator.cpp, object_channel_allocator.hpp |
| Application | apps/baseline_renderer/: main.cpp; apps/feedthrough/: main.cpp; apps/matrix_convolver/: main.cpp; apps/python_runner/: main.cpp; apps/time_frequency_feedthrough/: main.cpp; apps/visr_renderer/: main.cpp; libaudiointerfaces/: audio_interface.hpp, audio_interface_factory.cpp, audio_interface_factory.hpp |
| ArrayConfig | libpanning/: LoudspeakerArray.cpp; librbbl/: biquad_coefficient.cpp, biquad_coefficient.hpp |
| ArraySetup | libpml/: array_configuration.cpp, array_configuration.hpp |
| Biquad | libefl/reference/: filter_functions_impl.hpp; librbbl/: biquad_coefficient.hpp; librcl/: biquad_iir_filter.cpp |
| Cap | libpanning/: CAP.cpp, CAP_VBAP.cpp; librcl/: cap_gain_calculator.cpp |
| ChannelList | librbbl/: index_sequence.cpp; libvisr/: channel_list.cpp, channel_list.hpp |
| ChannelObject | libobjectmodel/: channel_object.cpp, object.cpp; libpanning/: LoudspeakerArray.cpp; librcl/: channel_object_routing_calculator.cpp, channel_object_routing_calculator.hpp |
| CircularBuffer | libefl/: alignment.hpp; librbbl/: circular_buffer.cpp, circular_buffer.hpp |
| Clock | librrl/: audio_signal_flow.cpp; libvisr/: signal_flow_context.hpp, time.cpp; libvisr/impl/: component_implementation.cpp, time_implementation.cpp, time_implementation.hpp |
| Compensation | librcl/: listener_compensation.cpp |
| Conversion | libefl/: vector_conversions.cpp, vector_conversions.hpp; libefl/reference/: vector_conversions_impl.hpp |
| Convolver | librbbl/: core_convolver_uniform.cpp, core_convolver_uniform.hpp, crossfading_convolver_uniform.cpp, fft_wrapper_base.hpp, ffts_wrapper.hpp, ipp_fft_wrapper.hpp, kiss_fft_wrapper.hpp, multichannel_convolver_uniform.cpp, multichannel_convolver_uniform.hpp |
| ConvolverApp | apps/matrix_convolver/: main.cpp, options.cpp; libaudiointerfaces/: jack_interface.cpp, portaudio_interface.cpp |
| CoreRenderer | libpml/: empty_parameter_config.cpp, matrix_parameter_config.cpp, vector_parameter_config.cpp; librbbl/: multichannel_convolver_uniform.cpp; librcl/: add.cpp, biquad_iir_filter.cpp, gain_vector.cpp, hoa_allrad_gain_calculator.cpp, listener_compensation.cpp, object_gain_eq_calculator.cpp, panning_calculator.cpp; libreverbobject/: reverb_object_renderer.cpp; libsignalflows/: core_renderer.cpp, core_renderer.hpp, delay_vector.cpp, gain_matrix.cpp; libvisr/impl/: composite_component_implementation.cpp |
| Crossfade | librbbl/: crossfading_convolver_uniform.cpp, crossfading_convolver_uniform.hpp |
| Crossover | libsignalflows/: core_renderer.cpp |
| Decoder | libpml/: double_buffering_protocol.cpp, listener_position.cpp; librcl/: position_decoder.cpp, scene_decoder.cpp |
| Decorrelation | librbbl/: fft_wrapper_factory.cpp, ffts_wrapper.cpp, ipp_fft_wrapper.cpp, ipp_fft_wrapper.hpp, kiss_fft_wrapper_float.cpp; libreverbobject/: reverb_object_renderer.cpp |
| DelayLine | librbbl/: circular_buffer.hpp, fractional_delay_factory.cpp, lagrange_interpolator.cpp, lagrange_interpolator.hpp, multichannel_delay_line.cpp, multichannel_delay_line.hpp |
| DelayMatrix | libefl/: basic_matrix.hpp; librcl/: delay_matrix.cpp, delay_matrix.hpp |
| DelayVector | librcl/: delay_vector.cpp, delay_vector.hpp |
| Delivery | libreverbobject/: reverb_object_renderer.cpp; librrl/: audio_signal_flow.cpp |
| Denormals | libefl/: denormalised_number_handling.cpp, denormalised_number_handling.hpp; python/efl/: denormalised_number_handling.cpp |
| Efl | libefl/: aligned_array.hpp, alignment.hpp, basic_matrix.hpp, vector_functions.hpp; libefl/reference/: vector_functions_impl.hpp |
| Encode | libobjectmodel/: channel_object_parser.cpp, hoa_source_parser.cpp, object_parser.cpp, object_vector_parser.cpp, plane_wave_parser.cpp, point_source_extent_parser.cpp, point_source_parser.cpp, point_source_with_diffuseness_parser.cpp, point_source_with_reverb.cpp, point_source_with_reverb.hpp, point_source_with_reverb_parser.cpp; librbbl/: parametric_iir_coefficient.cpp, parametric_iir_coefficient.hpp |
| EqDesign | libefl/: db_linear_conversion.hpp; librbbl/: parametric_iir_coefficient.cpp, parametric_iir_coefficient_calculator.cpp |
| Execute | libefl/reference/: vector_functions_impl.hpp; librrl/: audio_signal_flow.cpp, signal_routing_internal.cpp; libvisr/impl/: audio_port_base_implementation.cpp, time_implementation.cpp |
| FeedthroughApp | apps/feedthrough/: signal_flow.cpp, signal_flow.hpp; libvisr/: channel_list.cpp |
| FilterFile | librbbl/: biquad_coefficient.cpp, biquad_coefficient.hpp, parametric_iir_coefficient.cpp |
| FilterMatrix | apps/matrix_convolver/: init_filter_matrix.cpp; libefl/: basic_matrix.hpp; libpml/: matrix_parameter.cpp; maxmspexternals/matrix_convolver/: init_filter_matrix.cpp |
| Fir | libefl/: basic_matrix.hpp; librbbl/: fir.cpp, fir.hpp |
| FirMatrix | librcl/: crossfading_fir_filter_matrix.cpp, fir_filter_matrix.cpp, interpolating_fir_filter_matrix.cpp; libvisr/impl/: component_implementation.cpp |
| FlexibleBuffer | libefl/reference/: vector_functions_impl.hpp; librrl/: audio_signal_flow.cpp, audio_signal_flow.hpp, flexible_buffer_wrapper.cpp, flexible_buffer_wrapper.hpp |
| FloatSequence | librbbl/: float_sequence.cpp |
| Flow | librrl/: audio_connection_map.cpp, audio_connection_map.hpp, integrity_checking.cpp, port_utilities.cpp |
| GainFader | librbbl/: gain_fader.cpp, gain_fader.hpp |
| GainMatrix | librbbl/: gain_matrix.cpp, gain_matrix.hpp; librcl/: gain_matrix.cpp |
| GainVector | librcl/: gain_vector.cpp, gain_vector.hpp |
| Hosts | libmexsupport/: mex_wrapper.cpp; librrl/: audio_signal_flow.cpp; maxmspexternals/delay_vector/: delay_vector.cpp; maxmspexternals/gain_matrix/: gain_matrix.cpp; maxmspexternals/libmaxsupport/: signal_flow_wrapper.cpp; maxmspexternals/matrix_convolver/: matrix_convolver.cpp; maxmspexternals/visr_renderer/: visr_renderer.cpp; mex/feedthrough/: feedthrough.cpp |
| InterpConvolver | librbbl/: crossfading_convolver_uniform.cpp, interpolating_convolver_uniform.cpp, interpolating_convolver_uniform.hpp; librcl/: interpolating_fir_filter_matrix.cpp |
| InterpParam | libpml/: interpolation_parameter.cpp, interpolation_parameter.hpp; librbbl/: interpolation_parameter.cpp, interpolation_parameter.hpp |
| Jack | libaudiointerfaces/: jack_interface.cpp |
| KissFft | librbbl/: kiss_fft_wrapper.hpp, kiss_fft_wrapper_float.cpp |
| Lagrange | libefl/: lagrange_coefficient_calculator.cpp |
| LateFilter | libreverbobject/: late_reverb_filter_calculator.cpp, late_reverb_filter_calculator.hpp |
| Layout | librrl/: audio_signal_flow.cpp, signal_routing_internal.cpp; libvisr/: audio_input.hpp, constants.hpp; libvisr/impl/: audio_port_base_implementation.cpp |
| MatrixText | libpml/: matrix_parameter.cpp, vector_parameter.cpp |
| NdArray | libefl/: basic_matrix.cpp, basic_matrix.hpp, basic_vector.cpp; libefl/reference/: vector_functions_impl.hpp; libpml/: matrix_parameter.cpp; librrl/: audio_signal_flow.cpp, flexible_buffer_wrapper.cpp; python/efl/: basic_matrix.cpp, basic_vector.cpp; python/libpythonbindinghelpers/: matrix_from_ndarray.hpp, ndarray_from_basic_matrix.hpp; python/pml/: matrix_parameter.cpp; python/rrl/: audio_signal_flow.cpp, flexible_buffer_wrapper.cpp |
| Neon | libefl/: alignment.hpp, function_wrapper.hpp, initialise_library.cpp, vector_functions.hpp; libefl/armv7l_neon_32bit/: initialise_library.cpp, vector_add.cpp, vector_multiply.cpp, vector_multiply_add.cpp; libefl/intel_x86_64/: initialise_library.cpp, vector_multiply.cpp, vector_multiply_add.cpp |
| ObjectAttr | libobjectmodel/: channel_object.cpp, channel_object.hpp, diffuse_source.cpp, hoa_source.cpp, hoa_source.hpp, object.cpp, object.hpp, object_type.hpp, plane_wave.cpp, plane_wave.hpp, point_source.cpp, point_source.hpp, point_source_extent.cpp, point_source_with_diffuseness.cpp, point_source_with_reverb.cpp; python/objectmodel/: object.cpp, point_source.cpp |
| ObjectEq | libpml/: double_buffering_protocol.cpp, vector_parameter.cpp; librbbl/: biquad_coefficient.hpp, parametric_iir_coefficient_calculator.cpp; librcl/: object_gain_eq_calculator.cpp; libvisr/impl/: component_implementation.cpp |
| ObjectVector | libobjectmodel/: channel_object_parser.cpp, diffuse_source_parser.cpp, hoa_source_parser.cpp, object.hpp, object_factory.cpp, object_parser.cpp, object_type.cpp, object_type.hpp, object_vector.cpp, object_vector.hpp, object_vector_parser.cpp, plane_wave_parser.cpp, point_source_extent_parser.cpp, point_source_parser.cpp, point_source_with_diffuseness_parser.cpp, point_source_with_reverb_parser.cpp; libpml/: object_vector.cpp |
| Options | apps/baseline_renderer/: main.cpp, options.cpp; apps/feedthrough/: main.cpp; apps/matrix_convolver/: main.cpp; apps/python_runner/: main.cpp, options.cpp; apps/time_frequency_feedthrough/: main.cpp; apps/visr_renderer/: main.cpp, options.cpp; libapputilities/: options.cpp, options.hpp; libefl/: basic_matrix.hpp |
| Osc | librcl/: scalar_osc_decoder.cpp; libvisr/impl/: component_implementation.cpp |
| Panning | libefl/: cartesian_spherical_conversion.hpp; librcl/: cap_gain_calculator.cpp, diffusion_gain_calculator.cpp, panning_calculator.cpp, panning_calculator.hpp |
| PanningDsp | libefl/: basic_matrix.hpp; libpanningdsp/: panning_gain_matrix.cpp, panning_gain_matrix.hpp, panning_matrix_parameter.cpp, panning_matrix_parameter.hpp, types.hpp; libpml/: double_buffering_protocol.cpp; librrl/: audio_signal_flow.cpp; libvisr/: time.hpp; libvisr/impl/: component_implementation.cpp; python/libpythonbindinghelpers/: matrix_from_ndarray.hpp; python/panningdsp/: panning_matrix_parameter.cpp |
| ParamConfig | libefl/: basic_matrix.hpp; libpanningdsp/: panning_matrix_parameter.cpp, panning_matrix_parameter.hpp; libpml/: biquad_parameter.cpp, biquad_parameter.hpp, double_buffering_protocol.cpp, empty_parameter_config.cpp, filter_routing_parameter.cpp, filter_routing_parameter.hpp, indexed_value_parameter.cpp, indexed_value_parameter.hpp, interpolation_parameter.cpp, interpolation_parameter.hpp, listener_position.cpp, listener_position.hpp, matrix_parameter.cpp, matrix_parameter.hpp, matrix_parameter_config.cpp, message_queue_protocol.cpp, object_vector.cpp, object_vector.hpp, scalar_parameter.cpp, scalar_parameter.hpp, shared_data_protocol.cpp, signal_routing_parameter.cpp, signal_routing_parameter.hpp, sparse_gain_routing_parameter.cpp, sparse_gain_routing_parameter.hpp, string_parameter.cpp, string_parameter.hpp, time_frequency_parameter.cpp, time_frequency_parameter.hpp, time_frequency_parameter_config.cpp, vector_parameter.cpp, vector_parameter.hpp, vector_parameter_config.cpp; libreverbobject/: late_reverb_parameter.cpp, late_reverb_parameter.hpp; librrl/: audio_signal_flow.cpp, port_utilities.cpp; libvisr/: parameter_factory.cpp, typed_parameter_base.hpp |
| ParamFlow | libpml/: message_queue_protocol.cpp; librrl/: audio_signal_flow.cpp, audio_signal_flow.hpp, parameter_connection_graph.cpp, parameter_connection_graph.hpp, parameter_connection_map.cpp, port_utilities.cpp; libvisr/: communication_protocol_factory.cpp, polymorphic_parameter_input.cpp, polymorphic_parameter_output.cpp |
| Placeholder | librrl/: audio_connection_map.cpp, parameter_connection_map.cpp, port_utilities.cpp |
| PortAudio | libaudiointerfaces/: audio_interface.hpp, portaudio_interface.cpp, portaudio_interface.hpp; librrl/: communication_area.cpp, communication_area.hpp |
| Profiler | libefl/: basic_matrix.hpp, basic_vector.hpp; librrl/: audio_signal_flow.cpp, runtime_profiler.cpp, runtime_profiler.hpp |
| Protocol | libpml/: double_buffering_protocol.cpp, double_buffering_protocol.hpp, message_queue_protocol.cpp, message_queue_protocol.hpp, shared_data_protocol.cpp, shared_data_protocol.hpp |
| PyLock | apps/visr_renderer/: main.cpp; libpythoncomponents/: wrapper.cpp; libpythonsupport/: gil_ensure_guard.cpp, initialisation_guard.cpp |
| PyPort | librbbl/: biquad_coefficient.hpp, position_3d.hpp; librrl/: audio_signal_flow.cpp; libvisr/: audio_output.hpp, constants.hpp; python/rbbl/: biquad_coefficient.cpp, position_3d.cpp; python/visr/: audio_port.cpp |
| PyProfiler | librrl/: runtime_profiler.cpp; python/rrl/: runtime_profiler.cpp |
| PyVector | libefl/: filter_functions.cpp, vector_conversions.cpp, vector_functions.cpp; libefl/reference/: filter_functions.cpp, filter_functions_impl.hpp, vector_conversions.cpp, vector_functions.cpp; python/efl/: basic_vector.cpp, check_error.hpp, vector_functions.cpp; python/libpythonbindinghelpers/: container_access.hpp |
| PyWrapper | libpythoncomponents/: wrapper.cpp; libpythonsupport/: load_module.cpp; libvisr/impl/: composite_component_implementation.cpp |
| RealText | libpml/: matrix_parameter.cpp, vector_parameter.cpp; librbbl/: float_sequence.cpp |
| Registry | libvisr/: communication_protocol_factory.cpp, parameter_factory.cpp, parameter_factory.hpp |
| Reverb | libefl/: basic_matrix.hpp; libefl/reference/: vector_functions_impl.hpp; libobjectmodel/: object_vector.cpp, point_source_with_reverb.hpp; libpml/: double_buffering_protocol.cpp, object_vector.cpp; libreverbobject/: reverb_parameter_calculator.cpp, reverb_parameter_calculator.hpp |
| ReverbAttr | libobjectmodel/: point_source_with_reverb.cpp, point_source_with_reverb.hpp; python/objectmodel/: point_source_with_reverb.cpp |
| ReverbRenderer | libobjectmodel/: point_source_with_reverb.hpp; librbbl/: gain_matrix.cpp; librcl/: add.cpp, biquad_iir_filter.cpp, crossfading_fir_filter_matrix.cpp, delay_vector.cpp, fir_filter_matrix.cpp, gain_matrix.cpp, signal_routing.cpp; libreverbobject/: late_reverb_filter_calculator.cpp, late_reverb_filter_calculator.hpp, reverb_object_renderer.cpp, reverb_parameter_calculator.cpp, reverb_parameter_calculator.hpp; libsignalflows/: delay_vector.cpp, gain_matrix.cpp |
| Rotation | libefl/: degree_radian_conversion.hpp; libpml/: listener_position.cpp, listener_position.hpp; librbbl/: position_3d.cpp, position_3d.hpp, quaternion.cpp, quaternion.hpp |
| Routing | librbbl/: filter_routing.cpp, filter_routing.hpp, sparse_gain_routing.cpp, sparse_gain_routing.hpp |
| RoutingParameter | libpml/: signal_routing_parameter.cpp, signal_routing_parameter.hpp |
| SceneLink | librcl/: scene_decoder.cpp, scene_encoder.cpp |
| Schedule | librrl/: audio_signal_flow.cpp, scheduling_graph.cpp, scheduling_graph.hpp |
| SignalFlows | librcl/: delay_vector.cpp, gain_matrix.cpp, position_decoder.cpp, scene_decoder.cpp, time_frequency_inverse_transform.cpp, time_frequency_transform.cpp, udp_receiver.cpp, udp_receiver.hpp; libsignalflows/: baseline_renderer.cpp, bunch_renderer.cpp, core_renderer.cpp, delay_vector.cpp, gain_matrix.cpp, time_frequency_feedthrough.cpp |
| SignalRouting | librcl/: signal_routing.cpp, signal_routing.hpp |
| Simd | libefl/: alignment.hpp, error_codes.hpp, function_wrapper.hpp, vector_functions.cpp, vector_functions.hpp; libefl/armv7l_neon_32bit/: vector_functions.hpp, vector_multiply.cpp, vector_multiply_add.cpp; libefl/intel_x86_64/: cpu_features.cpp, initialise_library.cpp, vector_functions.hpp, vector_multiply.cpp, vector_multiply_add.cpp, vector_ramp_scaling.cpp; libefl/reference/: vector_functions.cpp, vector_functions.hpp, vector_functions_impl.hpp |
| SparseGain | librbbl/: sparse_gain_routing.hpp; librcl/: add.cpp, null_source.cpp, sparse_gain_matrix.cpp, sparse_gain_matrix.hpp; libvisr/impl/: component_implementation.cpp |
| Startup | librrl/: audio_signal_flow.cpp, port_utilities.cpp |
| TFParameter | libefl/: basic_matrix.hpp; libpml/: time_frequency_parameter.cpp, time_frequency_parameter.hpp; python/pml/: time_frequency_parameter.cpp |
| TimeFreq | librcl/: time_frequency_inverse_transform.cpp, time_frequency_inverse_transform.hpp, time_frequency_transform.cpp, time_frequency_transform.hpp |
| Tree | libvisr/impl/: audio_port_base_implementation.cpp, audio_port_base_implementation.hpp, component_implementation.cpp, component_implementation.hpp, composite_component_implementation.cpp, composite_component_implementation.hpp, parameter_port_base_implementation.cpp, port_base_implementation.hpp |
| TypeId | libpanningdsp/: initialise_parameter_library.cpp, panning_matrix_parameter.hpp; libpml/: biquad_parameter.hpp, double_buffering_protocol.hpp, filter_routing_parameter.hpp, indexed_value_parameter.hpp, initialise_parameter_library.cpp, interpolation_parameter.hpp, listener_position.hpp, matrix_parameter.hpp, message_queue_protocol.hpp, object_vector.hpp, scalar_parameter.hpp, shared_data_protocol.hpp, signal_routing_parameter.hpp, sparse_gain_routing_parameter.hpp, string_parameter.hpp, time_frequency_parameter.hpp, vector_parameter.hpp; libreverbobject/: late_reverb_parameter.hpp; libvisr/: communication_protocol_type.hpp, parameter_factory.hpp; libvisr/detail/: compile_time_hash_fnv1.hpp |
| Udp | librcl/: udp_receiver.cpp, udp_receiver.hpp |
| UdpSender | librcl/: udp_sender.cpp, udp_sender.hpp |
| Vbap | libpanning/: VBAP.cpp |
| VectorFn | libefl/: alignment.hpp, error_codes.hpp, vector_functions.cpp, vector_functions.hpp; libefl/reference/: vector_functions_impl.hpp |
| Wiring | libpml/: time_frequency_parameter_config.cpp; libvisr/: component.cpp; libvisr/impl/: component_implementation.cpp, composite_component_implementation.cpp |

Not modelled at all (no definition of the model is a reading of these):

* the whole of `libsignalflowspython` (programs, language bindings and plug-ins around the library);
* `libaudiointerfaces`: audio_interface.cpp;
* `libefl`: error_codes.cpp;
* `libpanning`: XYZ.cpp, XYZ.h, defs.h;
* `librbbl`: fractional_delay_base.cpp, fractional_delay_base.hpp, fractional_delay_interpolator_base.hpp, kiss_fft_wrapper_double.cpp;
* `librcl`: parameter_input_terminator.cpp, parameter_input_terminator.hpp, parameter_output_terminator.cpp, parameter_output_terminator.hpp;
* `libvisr`: atomic_component.cpp, atomic_component.hpp, audio_input.cpp, audio_output.cpp, audio_port_base.cpp, audio_port_base.hpp, audio_sample_type.cpp, audio_sample_type.hpp, communication_protocol_base.cpp, communication_protocol_base.hpp, composite_component.cpp, composite_component.hpp, detail/compose_message_string.hpp, impl/audio_connection_descriptor.cpp, impl/audio_connection_descriptor.hpp, impl/parameter_connection_descriptor.cpp, impl/parameter_connection_descriptor.hpp, impl/port_base_implementation.cpp, parameter_base.cpp, parameter_base.hpp, parameter_config_base.cpp, parameter_config_base.hpp, parameter_input.cpp, parameter_input.hpp, parameter_output.cpp, parameter_output.hpp, parameter_port_base.cpp, parameter_port_base.hpp, parameter_type.hpp, port_base.cpp, port_base.hpp, signal_flow_context.cpp, status_message.hpp, version.cpp, version.hpp;
* headers that only declare what a modelled source file implements are not listed;
* outside the repository: boost (property_tree, program_options, filesystem, graph; of spirit only the parsers `int_`, `uint_`, `real` and the grammars written with them are modelled), the FFT libraries FFTS and IPP (modelled by the contract of the discrete Fourier transform; KISS FFT, in /repo/3rd, is modelled), libsndfile, PortAudio and JACK (modelled as environments that answer calls in any permitted way), oscpkt, the C++ runtime, threads other than through the atomic sections of C34, sockets, the operating system;
* memory allocation failure, floating-point rounding, overflow and (except in the text parsers) NaN and infinities; wrap-around of integers except where a definition says otherwise.
<!-- coverage end -->

## Layout

`lean/Verif/<Area>/Model.lean` – definitions following the code; `Lemmas.lean` – helper facts;
`Props.lean` – the property theorems (with a small independent specification and non-vacuity examples).

## Properties: what is modelled and how it is proved

| id | model | proof |
|----|-------|-------|
| C01 | ChannelRange over `Int` | arithmetic; size characterised as the count of progression members before `end` |
| C02 | `operator<<` as a token printer over index lists, expansion of tokens as in IndexSequence | induction on the scan with accumulator |
| C03 | deque-based queue, step function over operations | refinement to a list log: popped ++ pending = enqueued |
| C04 | front/back buffers, flags per input | invariant over operation histories, spec = value at last swap |
| C05 | pointer fields of the three protocols | invariant by induction over connect/disconnect histories |
| C06 | row of 2A cells, write index, mirror copies | refinement: buffer state relates to the written history |
| C07 | wrapper loop over chunks, on top of abstract ring reads/writes justified by C06 | invariant in+out level = period; stream equation |
| C08 | used map + free stack | invariant over setObjects histories |
| C09 | std::set ordered by output as sorted list | refinement to `Nat → Option Nat` |
| C10 | routing table set + process | sum over routed inputs |
| C11 | counter-based ramp of GainVector/GainFader | closed form of the gain curve |
| C12 | setGain in GainMatrix/DelayVector/GainVector | continuity; negation where the code jumps |
| C13 | GainMatrix::process | finite sums |
| C14 | frequency-domain delay line, partitioned filters, FFT contract | induction over blocks |
| C15 | crossfade ramps of CrossfadingConvolver | closed form |
| C16 | delay line on top of the ring | read offsets; negation for the ring-length shortfall |
| C17 | multiplyAndShuffle and scale factors | structural induction; Mathlib Lagrange basis as specification |
| C18 | alignment arithmetic, std::align | number theory |
| C19 | stride layout | injectivity of row*stride+col |
| C20 | vectorRamp | closed form; negation for n=1 |
| C21 | transposed direct form II | induction over samples; append law for blocks |
| C22 | scheduling graph, topological sort | sortedness + permutation; cyclic graphs rejected |
| C23, C24 | placeholder chasing with trace / with counter | soundness and completeness w.r.t. an inductive chain relation |
| C25 | counting checks | iff with a declarative predicate |
| C26 | offset computation, contiguity test, routing insertion | prefix sums, injectivity, value preservation |
| C27 | sequential execution of a schedule over a signal store | unique-solution argument |
| C28 | port offset tables | prefix sums bijection |
| C29 | block counter | induction over histories |
| C30 | component tree, name tables | invariants; injectivity of joined names |
| C31 | two maps | invariant: mutually inverse |
| C32 | Welford recurrence over a field of characteristic 0 | induction |
| C33 | ObjectVector as id-keyed set, parser loop | refinement to `Id → Option Obj` |
| C34 | two processes with atomic critical sections | invariant over interleavings |
| C35 | message loop with exceptions | negation (poison message) and partial theorem |
| C36 | distances over ℝ | order/field reasoning |
| C37 | 3x3 inverse by cofactors, triplet search | linear algebra over a field |
| C38 | window framing, overlap-add | stream equations; negation for several hops per period |
| C39 | index arithmetic | injectivity |
| C40 | keyed lists | refinement to maps |
| C41 | routing calculator loop | membership characterisation; boundary negation |
| C42 | constructor/setter checks | invariant |
| C43 | quaternion algebra over a commutative ring | ring identities |
| C44 | the spirit grammar with its skipper at character level | soundness and completeness with respect to an explicit grammar |
| C45 | the character-level reader of C02 | structural induction on the tokens |
| C46 | DelayLine.Model | ring contents represent the written signals; Lagrange basis of Mathlib |
| C47 | DelayVector.Model | representation invariant over the call history, using the delay line theorem |
| C48 | heap of components and ports with dangling references as undefined behaviour (Tree) | decision logic against a declarative locality predicate |
| C49 | message tree as entries that are missing, malformed or a value (numbers instead of their text); parse and write as in the code | trigonometric identities for the angle formats; case analysis for exceptions |
| C50 | decoder with both buffers of the double-buffered output and the message queue | exact behaviour of a period, invariant over histories; negation (lost updates) and partial theorem |
| C51 | the selection loop with its two comparison variables | fold invariant; negation for messages out of order and partial theorems |
| C52 | writers of all object types, label and channel texts character by character | round trip by induction over labels, channels and objects; negations for extent sources, unset channels, six-digit texts |
| C53 | the coefficient formulas over the reals; the filters run on them are those of C21 | bilinear transform identities per type; stability from the Jury conditions; steady state by geometric decay of the transient; negation for frequencies above half the sampling frequency |
| C54 | both buffers of both outputs and the changed mark of the input, with the section calculation as a parameter | invariant over histories; negation for channels without an object |
| C55 | both pairs of matrices with their counters, on the delay line of C46 | refinement by induction over histories; negation for changes during a transition |
| C56 | both gain vectors, the routings and the control inputs with their change marks | refinement of a view of the events so far; negations for unused entries, interrupted transitions and simultaneous changes |
| C57 | the loop over the objects on three matrices with NaN as a value, the panner of C37, the change flags of both inputs | last write to each column, scaling of norms; negations for negative gains, listener moves, unknown labels, channel numbers, missing triplets, plane waves and extents |
| C58 | the gain formulas over the reals with NaN as a value, the triplet search with near triplets, the calculator as a state machine over scenes, listener positions and process calls | gains are an affine function of the interaural components, hence orthogonal to all other solutions; variance of the components is positive; search agrees with that of VBAP; invariant for pending listener positions; negations for medial loudspeakers, sources at the origin, negative gains, reversed order, tilted heads, 2D arrays, diffuseness and listener moves |
| C59 | `CoreRenderer`: the constructor as a function from the configuration to a component tree of `Flow` (ports with widths, audio and parameter connections), or an exception, or undefined; the contained components are represented by their ports. | The audio connections are a list of calls that all fit the port widths; every receive channel is counted exactly once by cases over the options; the output assignment is a bijection onto the active channels with the silent ones as complement; the connection check is decided by `connectionCheck_iff_partial`. Signals: a valuation of the ports that respects connections and components is determined by the inputs. |
| C60 | `AllRad`: constructors, `updateDecodingCoefficients` with matrices in memory, `process()` with undefined reads as an outcome; the panner is the model of `Vbap`. | Invariant over histories: the decoding gains belong to the last listener position that was processed; loop lemmas for the panning rows and the object loop; `product_correct` for the layout. |
| C61 | `AllRad.product`: the three nested loops with running addresses on flat memory (real numbers, no rounding). | Induction over the loops: an address is written by exactly one iteration (injectivity). |
| C62 | `Reverb`: allocator, both parameter buffers, the shared panning matrix in memory (rows padded) and the message queue; loops as recursions with undefined accesses as an outcome. | Per-channel postcondition of the channel loop that is kept by all later channels; invariant over histories (allocator, routing lists). |
| C63 | `Reverb`: stored parameters per channel and the list of all messages sent. | Invariant: the stored parameters are those of the last message (or the initial invalid ones); the channel loop appends messages with increasing channels. |
| C64 | `LateFilter`: biquad recursion on the noise, envelope loops with the size_t conversions (undefined out of range), loop over bands with the exception that ends it, message loop. | Induction on the filter recursion, the fill loops, the band loop (partial sums) and the message loop. |
| C65 | `Delivery`: the states of `Reverb` and `LateFilter` connected by the queue; a period runs both, an exception ends it. | Invariant: the messages ever sent are those whose filters were sent, in order, followed by the queue; bound on messages per call; an unchanged scene sends nothing. |
| C66 | `Wiring`: name-based connection calls of composites; `ReverbRenderer`: ports, components and calls of the constructor, giving a component tree of `Flow`. | The executed calls equal a list of links; counting links per channel gives the condition of the connection check (C13); the signals follow the links. |
| C67 | `SignalFlows`: the constructors as `Wiring` sites; the core renderer contains the tree of `ReverbRenderer` when reverberation is on. | The connection conditions of the core (C59) carry over when components are replaced by ones with the same ports; links counted per channel for the outer level. Negations for tracking, bunch renderer, names and gain matrix. |
| C68 | `InterpConvolver/Model.lean`: the database of transformed filters, the interpolation loop, on top of the model of the crossfading convolver; the message loops of the component | refinement to a database of impulse responses and the crossfading specification of C15 (`interpolation_stream_partial`), linearity of the transform and of convolution (`blend_sound`); negations for swapped limits and for bad messages |
| C69 | `PanningDsp/Model.lean`: the members per object, message handling with wrapping time arithmetic, the slope loop with its assertions, the changed flag and the sample clock | refinement of the slope loop to a trajectory that is defined sample by sample in time (`Spec.lean`), by induction over the loop, the objects and the history; exact law for interrupted transitions, negations for interruptions, late messages and missing durations |
| C70 | `PanningDsp/Model.lean`: parameter objects with dimensions, constructors, assignment with its intermediate states | case analysis for all dimensions; assignment is proved to fail unless the matrix is square (`assign_fails`) |
| C71 | `UdpSender/Model.lean`: both threads with program counters, mutex, message buffer, send operation, network; undefined behaviour and termination as flags | inductive invariant (lock ownership, send operation in progress iff buffer not empty), conservation law for messages, termination measure for progress; negations for zero bytes in the asynchronous mode, failed transmissions and oversized messages |
| C72 | `Simd/Model.lean`: one memory for all arguments, registers, the instructions with their alignment requirements (fault = undefined behaviour), all loops, the selection tables; exact arithmetic in a commutative ring | each loop body extends the written prefix of the result by its width (lane by lane), chained over the loops; the reference loops by induction; negations for the aligned store in the multiplication with a constant, its missing alignment check and the incomplete uninitialisation |
| C73 | `ArrayConfig/Model.lean`: the tree of nodes and attributes as data, every loop of `loadXmlStream` with its checks in order, the members of the array, writes outside vectors and matrices as undefined behaviour | each loop is characterised as reading its nodes one by one and folding a pure update; the readings are composed, names are shown to be injective, and the result is compared with the specification in `ArrayConfig/Spec.lean`; the converse constructs the readings of a well-formed configuration; negations with concrete configurations |
| C74 | the constructor with the calls of the PortAudio library as inputs, the buffer area as one array, the two transfer loops access by access, start/stop/register/unregister and the callback as a state machine | loop invariants for the copies, disjointness of the channels in the area, induction over histories for the registered function; the false parts (other sample formats, device names, restart, C strings, failed construction) by counterexamples |
| C75 | Verif/Jack: names as lists of characters, the loops of loadPortConfig with unchecked writes, the server as a state (ports, connections, active), refusals as inputs, the processing function as a parameter | the loops over elements characterised exactly (accepted iff the described names fill the ports); invariant of the server state by induction over histories; negations by evaluation of concrete configurations |
| C76 | Verif/FilterFile: property trees with ordered keyed children and data, put/push/find on them; the loading functions return the object they leave behind together with the outcome; text as the tree it denotes or no document | the spec says what a tree describes by first occurrences of keys; induction over lists of nodes and over the rows of a matrix; lookups after put; negations by computation |
| C77 | Verif/RealText: the number parser of the grammar library with sign, fraction, exponent and special values over exact rationals; Verif/MatrixText: the grammar of a line, the division into lines, the assembly of rows, de-interleaving of audio data with unread elements as none | completeness of the number parser for decimal literals and soundness for accepted ones; induction over the items of a line and over the lines of a text; negations by computation |
| C78 | Verif/FloatSequence: the grammar on top of Verif/RealText, the enumeration of ranges over exact rationals by well-founded recursion, special values, toString for a given notation of numbers | the loops of a range are characterised by the k-th element of a progression; induction over the entries of a text; soundness of everything accepted by induction on the length; negations by computation |
| C79 | Verif/FilterMatrix: list of names as characters, disk as a function, first run (places), sort as any sorted permutation, overlap test as coded, second run writing into rows with writes outside the matrix as undefined behaviour | sorted permutations of ascending starts are the identity; induction over files and rows with frame conditions; uniqueness of the specified matrix; negations by computation and by the position of the first file in the sorted order |
| C80 | `Verif/Osc/Model.lean`: the packet reader over byte lists, with reads outside the packet as undefined behaviour; the decoder component | a relational specification of the wire format (`Spec.lean`); completeness by induction on it, safety and soundness by strong induction on the length of the packet |
| C81 | `Verif/Conversion/Model.lean`: the loop over arrays with reads and writes outside as undefined behaviour, `llrint` as rounding of rationals, casts modulo the type | induction on the number of elements; the rounding is characterised by the distance and uniqueness of the nearest even integer |
| C82 | `Verif/Hosts/Model.lean`: wrappers around an arbitrary signal flow, with the conversions of C81 | induction on the channels and on the blocks with the invariant that earlier columns are final; the status that the signal flow returns decides the failure |
| C83 | A memory of arrays with pointers into them, accesses outside of an array undefined; every function is its alignment test and its loop over the elements, reading and writing the memory element by element. | Induction over the loop with an invariant that no element is overwritten before it is read; alignment by the theorem about checkAlignment (C18). |
| C84 | Arrays as views (type, pointer, shape, strides, flag for writing) of a memory of objects; the overloads in the order of registration, tried without and then with conversions as pybind11 does, a conversion making a copy; the container access with its comparison of signed sizes; then the functions of C83, C81 and C21. | Case analysis over the overloads: exact arguments are taken by the overload of their type in the first pass; soundness of the access; a new array is never one of the caller's. |
| C85 | Arrays as base address, shape and byte strides over a memory of 64-bit addresses; the wrappers with their unsigned strides; the flexible buffer of C07; matrices as in C06 with a storage identifier that changes when the matrix is resized. | A whole byte stride divided by a power of two as an unsigned number and multiplied again is the stride modulo 2^64, negative ones included; then inductions over samples, channels, calls and operations. Other strides give other addresses (proved). |
| C86 | Each function with its loop over four elements, the step for two and the step for the last element, in instructions on registers; a partial memory where accesses to other cells are undefined; uninitialised registers are arbitrary. | Each of the 68 steps writes the formula to its elements; invariant of the loop; comparison with the model of the reference functions (C83). |
| C87 | The filter as a state machine over a commutative ring, with the circular buffer, the int calculations and their ranges; accesses outside of the arrays are undefined. | Invariant: each of the last 2112 samples is at its time modulo the buffer size; the tap loop visits times modulo the buffer size; negations with concrete filters. |
| C88 | Control words as 32-bit vectors, one per thread, with the functions and the overloads of the Python binding as transitions. | Bitwise characterisation of the new control word; induction over the history for the bits which are never changed. |
| C89 | The hash on lists of 8-bit characters with 64-bit vectors, the names of all parameter classes and protocols, and the registrations as histories of the parameter factory of C31. | The multiplier is odd, so each step of the hash is a bijection; identifiers of the library compared by evaluation in the kernel; induction over registrations; collisions by counting. |
| C90 | The coefficients as the exact values of single precision numbers, and the filter bank as the IIR filter of C21 over real numbers. | Partition theorem of C21; natural response decays because both poles are real and inside the unit circle; squared magnitudes as quadratic polynomials of the cosine with positive Bernstein coefficients; bounds for the cosine. |
| C91 | ParamFlow: collection of the connections of the tree, the connection graph and its components, protocol creation and attachment (with the protocol objects of Protocol), external endpoints, for composite and atomic flows | invariants of the graph and the label merging (same label iff connected); components have one sender iff receivers have one; the result of the attachment loops by induction; trees by mutual induction, chains through composites bounded by the number of connections. False for composite ports with several senders: one sender is not attached (`sender_lost`) |
| C92 | ArraySetup: the object as an ordered list and a list of subwoofers, loadXml on the tree of nodes with attributes missing, unreadable or numbers, with all exceptions and the state they leave; XML syntax is not modelled | the ordered insertion by induction; the loops over nodes described by the list of nodes read, up to permutation; an ordered permutation of 1..n is 1..n; invariant over all histories. False for repeated calls (`reload_rejected`, `retry_rejected`) and for unreadable attributes (`malformed_attributes`) |
| C93 | Decorrelation: the generation loop with the random generator as a sequence of reals, the factory and the scaling conventions of the three FFT wrappers, the choice of the gain and of the filters in the constructor; FFT algorithms are replaced by the discrete Fourier transform | inverse transform as a sum over all roots of unity, their orthogonality gives the response on the grid and Parseval's theorem. False at 0 Hz and half the sampling frequency (`same_at_ends`, `coherent_at_zero`) and with the IPP wrapper (`ipp_too_small`, `ipp_convolution_scaled`) |
| C94 | KissFft: factorisation, recursion, in-place butterfly loops for all radices, tables of twiddle factors as arbitrary functions that are only known where the code fills them, packing and unpacking of the real transforms; exact complex arithmetic | butterflies are radix-p transforms of the products with twiddle factors; loop invariant for the in-place update; induction over the list of factors (decimation in time); even and odd samples for the real transforms; the contract assumed elsewhere (`IsDft`) follows |
| C95 | Options: the functions of Boost.Program_options and Boost.Tokenizer used by the code (from their documentation), Options::parse with both calls of store, the option tables, the part of main that turns options into settings, and the copy loop of the diffusion filters with reads behind the table as undefined behaviour | invariant of the loop of store; case analysis of parse; round trip of a writer for option files by induction over the text; false parts (positional options, values of flags, problems in files, blanks, negative numbers, documented defaults, large arrays) are refuted |
| C96 | PyWrapper: the splitting of search paths and class names, the changes of sys.path and the import, and the loops that create and connect the ports, with the ports and connections of Flow and Wiring. The interpreter is an arbitrary description of what it finds and creates. | induction over the texts, the nested names and the port lists; the connection theorems of Wiring with one link per port |
| C97 | ParamConfig: the five configuration classes and their comparison, the configuration class declared for each of the 37 parameter classes, the constructors from configurations with their exceptions, creation by the factory registrations of C89, the parameters the protocols contain, the check of connected ports, and assignment. | case analysis over all classes for arbitrary sizes, identifiers of C89 distinct, composition of check and creation |
| C98 | Clock/Model.lean: counters shared by the components of a tree, with an indeterminate value before the first signal flow; Clock/Spec.lean: trees, starts and completed blocks of a history of calls | invariant over histories relating trees and counters, then a fold over the calls; false where a second signal flow is created (negations proved) |
| C99 | Application/Model.lean: the table of audio interfaces as an ordered map; main as nested scopes of local objects with a log of events, on top of the model of the options; Application/Spec.lean: the predicates for accepted options, playing and typed letters, and the order of events | the ordered map against the list of registrations; case analysis over all points at which a run can end; false at the end of the input and for the floating-point mode after failures (negations proved) |
| C100 | Verif/SceneLink/Model.lean: the composition of the encoder (Verif/Encode) and the scene decoder (Verif/Decoder/SceneModel.lean) with a network that delivers any list of the messages sent so far. | Invariant over all histories: messages and scenes correspond, and both buffers of the receiver hold sent objects only. The last part is false of the code: removed objects stay at the receiver and are shown again after every second message, and an even number of arrivals in a block is not shown; proved as negations for all scenes and numbers of blocks, the odd case as _partial. |
| C101 | Verif/PyProfiler/Model.lean: the two copy loops of the binding on top of the profiler of Verif/Profiler, with arbitrary calls of other threads between the exchange of the buffers and the second lock; reading outside of the buffer and division by zero are undefined behaviour. | The buffer is a rotation of the most recent iterations (from C32). Order and absence of failures are false of the code: the start position is read after the counter was reset, and for a buffer of size zero the code divides by zero; both proved for all histories. What holds is proved for all histories as well: completeness without wrap, the right set of rows with wrap, and the order if the two counters happen to agree (_partial). |
| C102 | Verif/PyPort/Model.lean: one port with its memory, the copy loops of set with byte addresses modulo 2^64 (Verif/NdArray), the copies made by py::array_t without base object, and Python's iteration by index. | The loops are proved to store each element at its place for all whole strides. False of the code and proved as negations for all lengths and histories: for block sizes that are not a multiple of 64 bytes the rows are longer than the block and blocks are refused; assignments to returned arrays are lost; packed records are misread; iteration over positions and filter matrices is undefined. |
| C103 | `main` with its scopes and handler as a function from options, outcomes of the parts and console reads to a log of events and a status, composed of the models of the options (C95), the interface factory (C99), index lists (C45) and the filter matrix (C79) (`Verif/ConvolverApp`). | case analysis over all histories once, then exit codes, order of destruction and settings from it; negations by composition with the index list model and by evaluation of concrete command lines |
| C104 | Verif/PyLock/Model.lean: threads as lists of steps (initialise, take the lock, return it, use an object) that are executed in any order; a failing constructor releases its members after its local guard; using an object without the lock is undefined behaviour. | Invariant over all interleavings: the remaining steps of each thread are fine for the number of times it holds the lock. False of the code for failing constructors without an outer guard, as in the Python runner; proved as a negation for all failure stages after the module was loaded. |
| C105 | Verif/ObjectAttr/Model.lean: the members of all object classes, constructors, setters, getters, clone; members without initialisation are options. | Induction over the history from its end. False of the code: level, priority and the attributes of plane waves are indeterminate until set; outputs are not adapted to a new number of channels; the array version of setOutputChannels ignores the labels; unlocked sources are reported as locked. Proved as negations. |
| C106 | Verif/ReverbAttr/Model.lean: reflections, late reverberation settings, their setters with the loops, construction from lists, Python access. | Induction over the history from its end; the loops by induction on their lists. False of the code: empty lists, also the default arguments, make the construction fail; the reflections that remain after a new number keep their values. Proved as negations. |
| C107 | Verif/FeedthroughApp/Model.lean: ports, the loop with a number of observed iterations, connection calls with the checks of Verif/Wiring. | Loop invariant: the outputs below the start are connected, and the start is a multiple of the number of inputs. False of the code without inputs and with outputs: the loop never ends, proved for all numbers of iterations. |
| C108 | Verif/PanningDsp/PyModel.lean: NumPy arrays as shape and elements, conversion functions, constructor and setters. | Induction over the assignments from the last; false of the code for constructors with arrays of unequal length, which are accepted and cannot be repaired, proved for all such arrays. |
| C109 | Verif/TFParameter/PyModel.lean: the nested loops of the constructor, index conversion, item access and the buffer description over the storage model of C39. | Induction over the assignments of the loops on top of the storage lemmas of C39. False of the code for indices outside the dimensions and for arrays without channels; proved for all dimensions. |

## Wrong programs: how to read seeded/LOG.jsonl

Each line is one edit of the model, built in a scratch copy.

- `theorems_failed` lists the theorems whose own proof was rejected.
- `theorems_not_rebuilt` lists the theorems of MANIFEST.json in modules that import a module with a rejected proof. They were not checked against the edit. Being listed there is not evidence that the theorem is false of the edited program.
- `refuted_by_witness`, where present, is true if a concrete counterexample to the property was accepted by the kernel for the edited model.

Up to line 700 the two lists were at first recorded as one, which overstated what had been shown. They were separated afterwards. A listed module either failed or imports a listed module that failed, so the separation is determined. It agrees with the failures printed during the runs in all 466 lines for which that output still exists. The output of the earlier rounds no longer exists. `theorems_not_rebuilt` of these lines was computed with the imports and the manifest of the time of the separation.

Of these 700 edits, 175 were rejected by a theorem of the manifest itself, 27 by an example beside one, and 11 by nothing. In the remaining 487 only auxiliary lemmas were rejected. Such an edit shows that the proof as written does not go through. It does not show that the property theorem could not be proved in another way, so for these edits the strength of the property theorem has not been tested directly. One further edit did not type-check; its line was removed, as it tests nothing.

## Where a property is false of the code

Each row names the theorem that proves the failure from a concrete witness. The property itself is then proved in the
restricted form stated in MANIFEST.json.

| Property | What the code does | Theorem |
|---|---|---|
| C02 | printing the empty list dereferences an end iterator; an index repeated three times prints as a range the reader rejects | `ChannelList.channelList_print_empty_ub`, `channelList_triple_not_readable` |
| C06 | a ring buffer of length 0 divides by zero | `CircularBuffer.circularBuffer_empty_ub` |
| C07 | strided output is stored at the wrong positions for sample strides other than 1; after an exception of the flow the wrapper is unusable | `FlexibleBuffer.flexibleBuffer_strided_output_misplaced`, `flexibleBuffer_unusable_after_exception` |
| C08 | duplicate ids leak a channel | `Allocator.allocator_duplicate_leaks_channel` |
| C10 | `cInvalidIndex` as input reads out of bounds; setting a table adds to it instead of replacing it; the control port of a second `setup` is lost; a rejected table is half applied | `SignalRouting.signalRouting_invalid_index_ub`, `signalRouting_set_does_not_replace`, `signalRouting_setup_drops_control`, `signalRouting_setAll_not_atomic` |
| C12 | gain and delay transitions jump when a new value arrives during a transition; a gain set twice before a block jumps; the gain matrix control input restarts the transition in each block | `GainVector.gainVector_interrupted_jumps`, `DelayVector.delayVector_interrupted_jumps`, `GainMatrix.gainMatrix_double_set_jumps`, `GainMatrix.rclGainMatrix_control_input_restarts` |
| C14 | removing an existing routing compares an erased iterator; removing an absent one returns true; maximum filter length 0 computes a remainder modulo 0 | `Convolver.remove_existing_ub`, `remove_absent_true`, `convolver_no_taps_ub` |
| C15 | impulse response and routing indices are not checked; `initFilters` after start mutes | `Crossfade.setImpulseResponse_index_ub`, `routing_index_ub`, `initFilters_mutes` |
| C18 | sizes near the end of the address space wrap around | `Efl.alignedArray_wraps` |
| C19 | a moved-from matrix keeps its dimensions; a rejected move assignment changes them | `Efl.matrix_moved_from_ub`, `matrix_rejected_move_corrupts` |
| C20 | single-element ramps with equal inclusion flags | `Efl.vectorRamp_single_exclusive`, `vectorRamp_single_inclusive` |
| C21 | the constructor without coefficients is documented flat but mutes | `Biquad.biquad_default_is_mute` |
| C22 | the depth-first check alone misses cycles (the topological sort finds them); a missing vertex constructs an exception without throwing | `Schedule.checkAcyclicGraph_misses_cycles`, `schedule_unknown_sender_ub` |
| C23 | an isolated loop of composite ports is ignored | `Placeholder.audio_isolated_loop_ignored` |
| C24 | of several senders connected to a composite parameter port only one survives; a dead end is reported as a loop | `Placeholder.param_senders_lost`, `param_dead_end_called_loop` |
| C25 | the sample type of each port is compared with itself | `Flow.sampleType_mismatch_accepted` |
| C26 | connected ports of different sample types use different addresses; atomic flows with mixed types get overlapping buffers; copies of `double` signals need an alignment the pool does not guarantee | `Layout.mistyped_receiver_reads_elsewhere`, `atomic_mixed_types_overlap`, `double_copy_rejected` |
| C44 | white space as a separator is rejected | `RoutingParameter.routingString_blank_separator_rejected` |
| C46 | delays near the maximum read outside the ring; the method delay is wrong | `DelayLine.delayLine_near_maximum_ub`, `delayLine_methodDelay_wrong` |
| C47 | immediate changes (0 steps) are rejected although documented | `DelayVector.delayVector_immediate_rejected` |
| C30 | a child of the top-level flow may have its full name; children called "this" cannot be found; a port must not outlive its component | `Tree.top_level_name_ambiguous`, `child_this_not_found`, `colon_names_ambiguous`, `port_outlives_component_ub` |
| C48 | connections to a destroyed child stay in the table | `Tree.connection_outlives_child` |
| C31 | `typeFromName`/`typeToName` throw `out_of_range` for unknown protocols; the header documents `invalid_argument`. | `Registry.query_fails` |
| C31 | Registering a parameter type twice is silently ignored, and unregistering it once removes it for both users. | `Registry.parameter_shared_type_lost` |
| C32 | `getMean` documents NaN if nothing has been measured; the NaN values are overwritten and zeros are returned. | `Profiler.mean_without_iterations` |
| C32 | `getVariance` documents `logic_error` for fewer than two iterations; the code returns NaN. | `Profiler.variance_without_iterations` |
| C45 | A zero step or a negative index throws a C string, not a `std::exception`. | `ChannelList.sequence_zero_step` |
| C45 | A stepped range close to the largest 32-bit integer overflows a signed integer. | `ChannelList.sequence_overflow_ub` |
| C40 | `SparseGainRoutingList::removeRouting( in, out )` uses the first argument as entry index and ignores the second. | `Routing.gain_remove_by_position_wrong` |
| C40 | JSON messages with sequences of different lengths: a filter (or column) sequence that is too short is read beyond its end, one that is too long is cut off; a list of rows for a single entry index is cut off, an empty one read beyond its end. | `Routing.filter_json_unchecked`, `Routing.gain_json_unchecked` |
| C42 | When parameter ports are connected, the numbers of interpolants of sender and receiver are not compared (`compare` returns `true`). | `InterpParam.config_not_compared` |
| C39 | `numberOfFrames()` of a default constructed `TimeFrequencyParameter` divides by zero. | `TFParameter.frames_without_channels` |
| C41 | A channel with signal index `n` is routed although there are only `n` object channels (`>` instead of `>=`); the following `SignalRouting` then rejects the whole routing table. | `ChannelObject.routes_excess_channel`, `excess_channel_blocks_update` |
| C41 | Of several channels that name the same loudspeaker only the last is played. | `ChannelObject.shared_loudspeaker_lost` |
| C41 | A channel object with fewer output lists than channels makes `process()` throw on every call, because the input flag is not reset. | `ChannelObject.inconsistent_object_blocks` |
| C43 | `angleNormalised` / `angle` of two quaternions takes the square root of the inner product, so the angle to a turn by any `a` strictly between 0 and π is not `a` (120° gives 90°). | `angle_wrong`, `angle_wrong_example` |
| C43 | Spherical interpolation between equal or opposite quaternions divides by zero for every interpolation position. | `slerp_equal_is_nan` |
| C43 | The `normalise` argument of the quaternion constructor is ignored. | `constructor_does_not_normalise` |
| C49 | An orientation with pitch ±90° does not survive the yaw/pitch/roll message format. | `ypr_pole_lost` |
| C33 | `v.assign( v )` empties an object vector | `Visr.ObjectVector.assign_self_empties` |
| C33 | `v.insert( v.at( id ) )` reads the object after erasing it: undefined behaviour | `Visr.ObjectVector.insert_own_is_ub` |
| C33 | A channel text with a zero step or a negative index makes the scene message throw a C string, which no handler for `std::exception` catches, so that it leaves `SceneDecoder::process()` | `Visr.ObjectVector.bad_index_escapes` |
| C34 | The receive handler ignores its error argument: a failed receive operation is forwarded as a message with the bytes reported (an empty one), and receiving goes on. | `Visr.Udp.error_sends_empty_message` |
| C50 | Scene updates are applied to the two buffers of the output in turn: an object received in one period disappears when the next period updates another object. | `Visr.Decoder.update_lost` |
| C50 | Two accepted scene messages in one period swap the buffers twice: receivers see the old scene, although it is flagged as changed. | `Visr.Decoder.two_messages_invisible` |
| C50 | A message whose parsing throws something other than `std::exception` is never removed from the queue: every later `process()` throws. | `Visr.Decoder.poison_message` |
| C51 | A newer message of a larger face hides an older message of a smaller face that arrives later, and an older message of a smaller face replaces a newer one. | `Visr.Decoder.smaller_face_hidden`, `older_replaces_newer` |
| C51 | Messages of the largest face number are ignored. | `Visr.Decoder.largest_face_ignored` |
| C35 | A rejected filter or routing message is never consumed: reporting the error throws, and every later `process()` throws again, whatever arrives. | `Visr.FirMatrix.bad_filter_blocks`, `bad_single_blocks`, `bad_routings_block`, `crossfading_bad_filter_blocks` |
| C36 | With virtual loudspeakers, listener compensation writes beyond the end of its gain and delay vectors. | `Visr.Compensation.virtual_speakers_ub` |
| C36 | If all loudspeakers are at the position of the listener, all gains are NaN. | `Visr.Compensation.coincident_is_nan` |
| C37 | A triplet in a plane with the listener gets determinant 1 instead of being ignored; if it comes first it captures every source above its plane, with wrong gains. | `Visr.Vbap.flat_triplet_hides` |
| C37 | A two-dimensional array at height 1 with the listener at height 1 is silent: the auxiliary third direction `(0,0,1) - listener` lies in the plane. | `Visr.Vbap.height_one_is_silent` |
| C37 | A source at the position of the listener gets zero gains, not unit power. | `Visr.Vbap.source_at_listener` |
| C38 | with several hops per period only the buffer of the last frame is delivered; frames are lost; a period longer than the transform is read behind the work buffer | `TimeFreq.several_hops_lose_samples`, `synthesis_several_hops`, `long_period_ub` |
| C38 | the default normalisations of analysis and synthesis do not match: overall gain 1/sqrt(N) | `TimeFreq.default_normalisations` |
| C38 | hop size zero divides by zero before it is rejected; transforms longer than window plus period are rejected with `invalid_argument`; windows shorter than the hop or not a multiple of 16 samples throw in every `process`; windows longer than the transform write behind the buffer | `TimeFreq.zero_hop_ub`, `long_transform_rejected`, `short_window_throws`, `unaligned_window_throws`, `long_window_ub` |
| C52 | `PointSourceExtentParser::write` omits the diffuseness that `parse` requires: a scene with such a source cannot be read back. | `Visr.Encode.extent_not_readable` |
| C52 | Writing a channel object without channels advances an iterator past the end of an empty vector. | `Visr.Encode.empty_channel_object_ub` |
| C52 | A channel index that was never set is written as 4294967295, which the reader drops without telling the caller. | `Visr.Encode.unset_channel_lost` |
| C52 | Output labels with spaces are merged, with other characters refused. | `Visr.Encode.bad_labels` |
| C52 | Late reverberation values are written with six digits, equaliser gains below epsilon not at all. | `Visr.Encode.late_level_changed`, `small_gain_lost` |
| C53 | Centre frequencies above half the sampling frequency are accepted and give unstable filters; the header says frequencies are normalised and gains linear, the code takes Hz and dB. | `Visr.EqDesign.above_half_sampling_frequency_unstable` |
| C54 | The equaliser of a channel that no object uses is not reset; because the outputs are double buffered, the equaliser of the scene before the last one comes back. | `Visr.ObjectEq.unused_channel_equaliser_returns` |
| C54 | A scene with a channel index out of range, or with too many equaliser sections, makes every `process()` call throw until another scene arrives (the `continue` after `status( Error )` is never reached). | `Visr.ObjectEq.bad_scene_blocks` |
| C54 | With zero object channels every scene is refused. | `Visr.ObjectEq.no_channels_blocks` |
| C55 | New delays or gains of a delay matrix that arrive during a transition make the parameters jump, as in `DelayVector`. | `Visr.DelayMatrix.delayMatrix_interrupted_jumps` |
| C56 | A routing whose entry was not in use fades in from the gain last stored for the entry instead of from silence. | `Visr.SparseGain.sparse_new_entry_starts_from_old_gain` |
| C56 | Changes during a transition, and gains arriving in the same block as a routing list, make the gains jump. | `Visr.SparseGain.sparse_interrupted_jumps`, `sparse_both_changes_jump` |
| C56 | A routing list with an index out of range makes every `process()` call throw until another list arrives; the input for single routing points is ignored. | `Visr.SparseGain.sparse_bad_routings_block`, `sparse_points_ignored` |
| C57 | A direction outside all loudspeaker triplets gets a negative panning gain; all high-frequency gains of this source become NaN. | `Panning.negative_gain_is_nan` |
| C57 | A moved listener does not change the gains until there is a new scene. | `Panning.listener_waits` |
| C57 | Plane waves: azimuth and elevation in degrees are used as radian. | `Panning.plane_wave_in_degrees` |
| C57 | A channel object label that names no loudspeaker, or an object channel beyond the number of channels, is undefined behaviour (no check). | `Panning.unknown_label`, `Panning.channel_out_of_range` |
| C57 | A direction for which the panner throws stops the component: the scene stays new, and every further process() throws. | `Panning.no_gains_blocks` |
| C57 | The diffuse part of a source with extent is lost in DiffusionGainCalculator. | `Panning.extent_loses_diffuse_part` |
| C58 | If all loudspeakers have the same component along the interaural axis, CAP gains of all channels are NaN | `Cap.median_plane_is_nan` |
| C58 | A source at the origin is silent with three or more loudspeakers | `Cap.origin_is_silent` |
| C58 | The gain limit is not applied to negative gains | `Cap.negative_gain_unlimited` |
| C58 | With two loudspeakers, a listener who faces away gets inverted polarity, or NaN in high-frequency mode | `Cap.facing_away_inverts`, `Cap.high_frequency_nan` |
| C58 | The interaural axis of a tilted head has the wrong sign in z compared to the rotation used elsewhere; before the first listener position it points forward | `Cap.aural_axis_differs`, `Cap.initial_axis` |
| C58 | High-frequency gains of two-dimensional arrays read the position of a loudspeaker with an invalid index | `Cap.vbip_2D_undefined` |
| C58 | `CAPGainCalculator` ignores diffuseness (the level is overwritten) | `Cap.diffuseness_ignored` |
| C58 | `CAPGainCalculator` ignores listener moves until the next scene: the changed flag is reset before it is tested | `Cap.listener_move_ignored` |
| C58 | The square root of the high-frequency gains is computed but dropped | `Cap.cap_scene_partial` |
| C59 | With listener tracking the renderer cannot be used: the listener position input of the HOA gain calculator is never connected, so the connection check fails | `tracking_rejected` |
| C59 | With listener tracking, the subwoofers have no signal (without output equalisation) or the construction throws (with it) | `tracking_subwoofers_unconnected`, `tracking_equaliser_subwoofers_throws` |
| C59 | The maximum of an empty vector of delays is read | `no_delays_undefined` |
| C60 | A HOA source with a wrong number of channels (or a channel out of range) is reported, but then `process()` returns: all HOA sources after it in the scene are not decoded | `error_skips_later_sources` |
| C60 | A HOA source of a higher order than the decoder makes `process()` read beyond the decoding matrix | `higher_order_undefined` |
| C60 | A regular array with virtual loudspeakers is always rejected by the calculator; `AllRAD` itself accepts it and reads positions out of bounds | `virtual_rejected`, `virtual_undefined` |
| C62 | A scene that is rejected half-way has already changed the panning gains, which are shared with the gain matrix component, while gains, delays, filters and routing stay those of the scene before: reflections of objects that are still played lose their panning gains. | `Visr.Reverb.failed_scene_half_applied` |
| C64 | If onset and attack of band b do not fit, the code reports "skipping calculation" but sends a filter with only the bands before b. | `LateFilter.long_attack_truncates`, `skipped_filter_sounds` |
| C64 | A message with an invalid channel is never popped: every later `process()` throws and no filter is sent any more. | `LateFilter.bad_channel_blocks` |
| C64 | A negative onset delay (or attack time) is converted to `size_t`: undefined behaviour. | `LateFilter.negative_onset_undefined` |
| C65 | With fewer filter updates per period than objects (default: 1) and changing scenes the message queue grows without bound: outdated messages are processed one after the other instead of being superseded. | `Delivery.backlog_grows` |
| C67 | `BaselineRenderer` with tracking is never accepted: the tracking receiver is not connected to the position decoder (`baseline_renderer.cpp:61-66`). | `Visr.SignalFlows.baseline_tracking_rejected` |
| C67 | `BunchRenderer` connects its output with the number of inputs (`bunch_renderer.cpp:49-50`); it is rejected unless the array has as many outputs as there are objects. | `Visr.SignalFlows.bunch_accepted_iff` |
| C67 | `signalflows::GainMatrix` always throws: the ports of `rcl::GainMatrix` are called `in` and `out` (`gain_matrix.cpp:34-37`). | `Visr.SignalFlows.gain_throws` |
| C67 | `signalflows::DelayVector` ignores its name (`delay_vector.cpp:19`); a composite cannot contain two. | `Visr.SignalFlows.two_delays_throw` |
| C67 | `TimeFrequencyFeedthrough` divides by the hop size before checking it (`time_frequency_transform.cpp:103`). | `Visr.SignalFlows.feedthrough_hop_zero` |
| C66 | A negative `lateReverbFilterLength` is converted to an unsigned number before it is limited (`reverb_object_renderer.cpp:174`), which is undefined; the filter calculator limits first. Not modelled. | |
| C68 | The constructor of the interpolating convolver passes the maximum number of stored filters where the crossfading convolver expects the maximum number of routings and vice versa (`interpolating_convolver_uniform.cpp:36-37`): with fewer filters than routings, valid ids and routings are rejected; with more filters than routings, ids between the two are accepted and access vectors out of range | `routing_limit_wrong`, `interpolant_id_ub` |
| C68 | Zero interpolants are accepted by the constructor, although a comment says that this is checked there; `setInterpolant` then dereferences the end of an empty range | `no_interpolants_ub` |
| C68 | An interpolant message that is rejected stays in the queue, so that `process()` of the interpolating filter matrix never succeeds again | `bad_interpolant_blocks` |
| C69 | `updateTransition` sets the start time of the slope before it computes the interpolated gain, so a transition that replaces a running one at once makes the gain jump back to the start of the running one (`panning_gain_matrix.cpp:301-320`). | `interruption_jumps` |
| C69 | When a later transition cuts off a running one, the gain is evaluated at the current time instead of the start time, so that the gain jumps and the running transition is redirected (`panning_gain_matrix.cpp:333-347`). | `stored_interruption_jumps` |
| C69 | A stored transition that is replaced before it starts still cuts off the running one. | `replaced_transition_cuts_off` |
| C69 | Time stamps in the past are documented to be ignored; `status( Error )` throws, the changed flag stays set, and the component throws in every block until another message arrives. | `late_message_blocks` |
| C69 | A message with a start time and the default (infinite) duration makes the end time wrap around; the component then writes behind its output buffers. | `missing_duration_ub` |
| C69 | The constructor does not check the dimension of the initial transitions. | `short_initial_transitions_ub` |
| C70 | `PanningMatrixParameter::operator=` resizes the gain matrix with rows and columns exchanged, so that assignment throws unless the matrix is square; `swapBuffers( true )` fails for the same reason. | `assign_fails` |
| C70 | The constructor from arrays does not check the number of start times and durations. | `ofArrays_unchecked` |
| C71 | In the asynchronous mode `UdpSender` copies messages through a `char const *`, so that they end at the first zero byte; every OSC message contains zero bytes. | `Visr.UdpSender.zero_byte_truncates`, `Visr.UdpSender.osc_message_truncated` |
| C71 | In the asynchronous mode a failed transmission throws in the completion handler, which leaves the network thread and terminates the program. | `Visr.UdpSender.failed_transmission_terminates` |
| C71 | In the synchronous mode a message that cannot be transmitted stays at the front of the input: `process()` throws in each call and no later message is transmitted. | `Visr.UdpSender.oversized_message_blocks`, `Visr.UdpSender.blocked_process_throws` |
| C72 | `vectorMultiplyConstantAddInplace<float>` uses an aligned store for groups of four elements, whatever the alignment: a call without alignment promise faults if the accumulator is not aligned to four elements (`vector_multiply_add.cpp:413`). | `Visr.Simd.constant_faults` |
| C72 | The vectorised multiplications with a constant do not check the alignment: a wrong promise faults, where the reference function returns `alignmentError`. | `Visr.Simd.constant_unchecked` |
| C72 | `uninitialiseLibrary` does not restore `vectorMultiplyAddInplace<double>`. | `Visr.Simd.uninitialise_incomplete` |
| C73 | An id of a regular loudspeaker with blanks around it is trimmed when it is registered but not when it gets its index, so the name denotes the first loudspeaker (`LoudspeakerArray.cpp:360-366`). | `Visr.ArrayConfig.padded_id_is_misplaced` |
| C73 | A route to a virtual loudspeaker, or a subwoofer fed from one, writes outside a matrix instead of being rejected (`LoudspeakerArray.cpp:410`, `:503`, `:510`). | `Visr.ArrayConfig.route_to_virtual_is_undefined`, `Visr.ArrayConfig.subwoofer_of_virtual_is_undefined` |
| C73 | The map of ids is not cleared before loading: loading the same configuration again is always rejected, and after loading another one the old ids are still resolved, possibly to indices outside the array. | `Visr.ArrayConfig.reload_is_rejected`, `Visr.ArrayConfig.stale_id_after_second_load` |
| C73 | `getSpeakerChannelFromId` of a virtual loudspeaker reads outside the vector of channels instead of throwing `std::out_of_range`. | `Visr.ArrayConfig.channel_of_virtual_is_undefined` |
| C73 | A subwoofer with channel 0 is accepted although channels are counted from one (`core_renderer.cpp:322` then subtracts one from it). | `Visr.ArrayConfig.subwoofer_channel_zero_is_accepted` |
| C74 | A device whose name is the beginning of the requested name is used, or rejected, although a device with exactly the requested name exists. | `Visr.PortAudio.shorter_name_is_preferred` |
| C74 | Every sample format other than `float32Bit` that PortAudio supports is accepted by the constructor, but each block then makes a C++ exception leave the callback of the C library. | `Visr.PortAudio.other_format_escapes` |
| C74 | An exception that is a C string leaves the callback of the C library. | `Visr.PortAudio.c_string_escapes` |
| C74 | `stop()` closes the stream; a later `start()` or `stop()` uses the closed stream. | `Visr.PortAudio.restart_is_undefined` |
| C74 | While no function is registered the output buffer is not cleared. | `Visr.PortAudio.output_without_function_is_not_silence` |
| C74 | A construction that fails after `Pa_Initialize` never calls `Pa_Terminate`. | `Visr.PortAudio.failed_construction_stays_initialised` |
| C74 | The destructor does not stop the stream; while another interface exists the library keeps calling the destroyed object. | `Visr.PortAudio.destroyed_owner_keeps_running` |
| C74 | With the default block size 0 of the base configuration no samples are transferred. | `Visr.PortAudio.zero_period_plays_nothing` |
| C75 | Equal names of capture ports and of a capture and a playback port are not detected by the constructor: the check runs before the capture names are assigned | `Visr.Jack.capture_duplicates_are_not_detected` |
| C75 | Elements describing more ports, or external ports, than channels write behind the end of the name arrays | `Visr.Jack.too_many_names_are_undefined` |
| C75 | `autoconnect` of one direction has no effect if the global setting is off: the flag is passed by value | `Visr.Jack.autoconnect_of_one_direction_is_ignored` |
| C75 | An element without `externalport` inherits the one of the element before | `Visr.Jack.external_ports_are_inherited` |
| C75 | Names with a colon are registered without their prefix but connected with it: never connected | `Visr.Jack.names_with_colon_are_not_connected` |
| C75 | A failed `start()` leaves the client active and `stop()` does nothing | `Visr.Jack.failed_start_leaves_client_active` |
| C75 | A C string thrown by the function escapes into the server thread | `Visr.Jack.c_string_escapes` |
| C75 | Without a registered function the playback buffers are left as they are, not silent | `Visr.Jack.output_without_function_is_not_silence` |
| C76 | A failed load of a biquad section or list from JSON, or of a matrix, leaves the object partly overwritten (`biquad_coefficient.cpp:76-87`, `:255-268`, `:525-552`) | `FilterFile.Demo.failed_json_load_modifies_section`, `..._list`, `..._matrix` |
| C76 | `writeXml` of biquad sections, lists and matrices writes nothing; `writeJson` and `loadXml` of matrices do nothing | `FilterFile.biquad_xml_is_not_read_back`, `biquads_xml_are_not_read_back`, `matrix_json_is_not_read_back`, `matrix_xml_is_ignored` |
| C76 | Rows of differing length in a JSON matrix are meant to be rejected; the exception is constructed, but not thrown (`biquad_coefficient.cpp:546-549`). Likewise the assignment of lists of another size | `FilterFile.shorter_rows_are_accepted`, `list_of_other_size_is_assigned` |
| C76 | `setFilter` with an empty filter takes `&newFilter[0]` of an empty vector (`biquad_coefficient.cpp:466`); loading a loudspeaker array with equalisers does so for every loudspeaker without one | `FilterFile.empty_filter_is_undefined` |
| C76 | `ParametricIirCoefficient::writeJson` to a stream or string writes nothing, `loadXml( string )` takes the text for a file name, and lists written to XML cannot be read (`parametric_iir_coefficient.cpp:293-306`, `:266-279`, `:448-457`) | `FilterFile.section_text_is_empty`, `xml_string_is_a_file_name`, `sections_xml_are_not_read_back` |
| C76 | Gains below the rounding unit are written as zero; an unreadable gain is read as 0 and an unreadable `a0` as 1 without an error; `a0` = 0 is accepted | `FilterFile.tiny_gain_is_lost`, `Demo.unreadable_gain_is_ignored`, `Demo.unreadable_a0_is_ignored` |
| C77 | Texts such as `1-2` or `1.2.3` are accepted as several numbers although no separator stands between them. | `Visr.MatrixText.Demo.unseparated_numbers_accepted` |
| C77 | In a vector text a comment extends to the end of the text, so the values of all following lines are silently ignored. | `Visr.MatrixText.Demo.comment_swallows_following_lines` |
| C77 | In a matrix text a comment ends at a semicolon; the remainder of the comment is read as a row. | `Visr.MatrixText.Demo.comment_ends_at_semicolon` |
| C77 | `fromAudioFile` constructs, but does not throw, the exceptions for failed and incomplete reads, and returns elements that have never been assigned. | `Visr.MatrixText.Demo.incomplete_audio_accepted` |
| C78 | A range with a step of zero is rejected by throwing a `char const *`, which is not derived from `std::exception`. | `Visr.FloatSequence.zero_step_throws_string` |
| C78 | The text of an empty sequence is empty, and an empty text is rejected. | `Visr.FloatSequence.Demo.empty_sequence_not_read_back` |
| C78 | A range with an infinite end is enumerated until the memory is exhausted. | `Visr.FloatSequence.Demo.infinite_range_never_ends` |
| C79 | The test for overlapping filters compares `startIndex[order[i] - 1]` with `endIndex[order[i]]` (`init_filter_matrix.cpp:136`) instead of the end of the predecessor with the start: overlaps of ascending files are never detected, and the responses are mixed. | `overlap_not_detected`, `overlap_mixes_responses` |
| C79 | The same expression accesses the vector at index `SIZE_MAX` if the first file does not have the lowest start index; other disjoint arrangements are rejected as overlapping. | `first_file_must_be_lowest`, `disjoint_files_undefined`, `disjoint_files_rejected` |
| C79 | The number of filters is computed from the last file of the list (`init_filter_matrix.cpp:142`), not from the highest index: other files are then written outside the matrix. | `disjoint_files_written_outside` |
| C79 | A blank list of files, documented as "no files", is looked up as a file with an empty name. | `blank_list_is_a_file` |
| C80 | A message whose first argument is missing or of another type delivers the value zero instead of being ignored: the reader overwrites the default value that the decoder gives | `wrong_type_is_zero`, `Demo.integer_for_float` |
| C80 | A negative number for a decoder of unsigned values drops all following messages of the same datagram (the reported error is thrown and caught outside of the loop) | `negative_drops_the_rest`, `Demo.negative_uint_drops` |
| C80 | One malformed message, or one with an unsupported argument type, drops all messages of its datagram | `Demo.unknown_type_drops_all` |
| C80 | The size of a blob is added to 4 with 32 bits: a message declaring 4294967292 bytes is accepted, and its bytes are read twice | `Demo.blob_overflow_accepted` |
| C80 | Bundles without elements, which OSC allows, are rejected | `empty_bundle_rejected` |
| C81 | Floating-point samples outside the range of an integer type are not limited but wrap around, so that a clipped positive peak becomes the most negative value | `Conversion.out_of_range_wraps`, `Conversion.Demo.wraps` |
| C82 | Every Matlab function throws after its first block: `AudioSignalFlow::process` returns `true` for success, the wrapper takes everything but zero for an error | `Hosts.mex_always_fails`, `Hosts.Demo.matlab_fails` |
| C82 | In Max/MSP, an exception of the signal flow is replaced by a `std::string`, which the handlers for `std::exception` do not catch: it leaves the callback | `Hosts.max_failure_escapes` |
| C82 | The Max/MSP externals report wrong numbers of channels or samples but then process the block with the configured numbers, outside of the buffers of the host | `Hosts.max_missing_samples_undefined`, `Hosts.Demo.short_block` |
| C82 | After a failed initialisation, the next block dereferences a null pointer in the Max/MSP externals | `Hosts.max_uninitialised` |
| C82 | The Max/MSP external for delays never processes anything: the call is commented out | `Hosts.max_delay_vector_does_nothing` |
| C83 | `vectorSubtract( subtrahend, minuend )` and `vectorSubtractConstant( constantMinuend, … )` compute the subtrahend minus the minuend; `vectorSubtractInplace` the minuend minus the subtrahend | `VectorFn.subtract_reversed`, `VectorFn.subtract_inplace_opposite` |
| C83 | `vectorRampScaling` checks the alignment in debug builds only | `VectorFn.ramp_scaling_release_unchecked` |
| C84 | From Python, a vector function called with arrays of different sample types, or with an integer constant, succeeds but stores its result in a temporary copy: the output array does not change | `PyVector.result_lost`, `PyVector.fill_integer_lost` |
| C84 | A number of elements of 2^63 or more passes the size check of the Python functions (signed comparison), and memory outside of the arrays is accessed | `PyVector.huge_count_undefined` |
| C84 | `vectorCopyStrided` in Python checks the product of elements and stride modulo 2^64, so that accesses outside are accepted; conversely it requires a whole stride after the last element | `PyVector.copy_strided_undefined`, `PyVector.copy_strided_wraps`, `PyVector.copy_strided_too_strict` |
| C84 | The strided conversions in Python check the sizes without the strides and access memory outside of the arrays | `PyVector.convert_strided_undefined` |
| C84 | The default `coeffStride = 0` of `iirFilterBiquadsSingleChannel` in Python filters all sections with the coefficients of the first and accepts arrays with fewer than five coefficients | `PyVector.iir_default_ignores_sections`, `PyVector.iir_default_differs`, `PyVector.iir_default_undefined` |
| C85 | An array whose byte strides are not multiples of the size of a sample, e.g. a field of a structured array, is read at wrong addresses, because the strides are divided by the size. | `Visr.NdArray.odd_stride_wrong_samples` |
| C85 | An array that refers to a matrix reads freed memory after `resize`. | `Visr.NdArray.view_dangles` |
| C85 | `m[i, j, k, ...]` is accepted for two-dimensional matrices, the further indices are ignored. | `Visr.NdArray.extra_indices_ignored` |
| C86 | In release builds the NEON functions do not report wrong alignment promises (the reference functions do), but the complex `vectorMultiplyAddInplace` does | `Visr.Neon.release_unchecked` |
| C58 | `CAP_VBAP::set2Dfade()` has no effect: elevated sources of two-dimensional arrays do not fade | `Cap.fade_has_no_effect` |
| C87 | `FIR` accepts more than 2049 coefficients; its output then contains future samples | `Fir.future_sample_heard` |
| C87 | `FIR::setUpsampleRatio()` accepts negative ratios, with which `process()` reads outside of its buffer | `Fir.negative_ratio_undefined` |
| C87 | `createWhiteTristateFIRs()` does not check the number of filters, and its normalisation is never applied | `Fir.white_undefined`, `Fir.white_unnormalised` |
| C89 | The classes `BiquadCoefficientParameter`, `BiquadCoefficientListParameter` and `LateReverbParameter` have identifiers, but no library registers them, so that the parameter factory throws for them. | `Visr.TypeId.initialised_partial` |
| C89 | For names with other than ASCII characters, identifiers differ between platforms with signed and unsigned `char`. | `Visr.TypeId.hash_depends_on_platform` |
| C89 | Different names can have the same identifier; no check tells a collision from a repeated registration of the parameter type. | `Visr.TypeId.collisions` |
| C90 | The crossover has fixed coefficients: at other sampling frequencies than 48 kHz, its frequency is not 700 Hz (at 96 kHz it is 1400 Hz). | `Visr.Crossover.fixed_sampling_frequency` |
| C90 | A renderer with frequency-dependent panning and without objects is refused, because a coefficient matrix without rows has no sections. | `Visr.Crossover.no_objects` |
| C91 | Two outputs connected to one input of a composite: the flow is accepted, but one of the outputs is attached to nothing, and using it dereferences a null pointer. To an atomic component the same connections are rejected. | `sender_lost` |
| C91 | A connection to an atomic component that is registered twice passes the check, but the constructor throws a `logic_error` instead of a `runtime_error`; registered twice to a composite it is accepted. | `repeated_connection` |
| C91 | `ConnectedPorts::numReceivers()` returns the number of senders, so the check for missing receivers tests the senders (without effect, as every connection has both). | `Connected.numReceivers` in `Verif/ParamFlow/Model.lean` |
| C91 | For atomic flows with an unknown protocol or parameter type the constructor throws `out_of_range` or `invalid_argument` rather than `runtime_error`. | `atomic` |
| C92 | A configuration that has been loaded cannot be loaded again: every file with at least one output is rejected the second time. | `reload_rejected` |
| C92 | A rejected file leaves the object changed: the corrected file is rejected as well. | `retry_rejected` |
| C92 | Unreadable gains and delays are treated as missing (delay 0) without an error; unreadable numbers give a `runtime_error` although `invalid_argument` is documented. | `malformed_attributes` |
| C93 | At 0 Hz and at half the sampling frequency all decorrelation filters have the same real response: the loudspeaker signals add up in phase there, with the gain √n instead of 1 in power. | `same_at_ends`, `coherent_at_zero` |
| C93 | The IPP wrapper divides both transforms by √N but declares the scaling factors 1: with `"ipp"` as FFT implementation, convolvers are too quiet by the factor N^(3/2) and random-phase filters by √N. | `ipp_too_small`, `ipp_convolution_scaled` |
| C95 | Options registered as positional (the array configuration) are never recognised as such, because the description of the positional options is not given to the parser. The word is silently ignored. | `Visr.Options.positional_ignored`, `Visr.Options.array_not_positional` |
| C95 | `--low-frequency-panning false` activates low-frequency panning and `--low-frequency-panning=false` is refused; the documentation gives both values as admissible. | `Visr.Options.low_frequency_false`, `Visr.Options.flag_value_ignored` |
| C95 | Problems in an option file are thrown out of `Options::parse` instead of being reported as a failure. A second blank between a numeric option and its value is such a problem, and so is a backslash of a Windows path. | `Visr.Options.file_problems_escape`, `Visr.Options.two_blanks_throw` |
| C95 | Negative numbers are accepted for numeric options and wrap around: `--period -1` asks for 2^64 - 1 samples. | `Visr.Options.negative_wraps`, `Visr.Options.negative_period` |
| C95 | The default sampling frequency is 44100 Hz (documentation: 48000 Hz) and the default number of outputs is the number of loudspeakers (documentation: the largest channel number). | `Visr.Options.default_values` |
| C95 | With more than 64 regular loudspeakers the renderers read behind the compiled-in table of diffusion filters. | `Visr.Options.large_array`, `Visr.Options.diffusion_partial` |
| C95 | The notation `-audio-ifc-options=...` of the documentation is refused by the renderers; the Python runner takes it as positional arguments of the component. | `Visr.Options.one_dash` |
| C96 | `loadModule()` splits search paths at blanks as well as commas, so a directory with a blank in its name is looked for in parts | `Visr.PyWrapper.blank_splits` |
| C96 | `loadModule()` with a separate module search path ignores that path: only the additional path is appended to `sys.path` | `Visr.PyWrapper.module_path_unused` |
| C96 | A Python wrapper is registered in its parent as `<name>_wrapper`, not under the documented name | `Visr.PyWrapper.name_differs` |
| C97 | Configurations of interpolation parameters are compatible with every configuration: ports for different numbers of interpolants are connected, and the receiver gets parameters of another size than it stated. | `Visr.ParamConfig.interpolation_mismatch`, `Visr.ParamConfig.interpolation_any` |
| C97 | Ports for `BiquadCoefficientParameter` and `BiquadCoefficientListParameter` are declared with `MatrixParameterConfig`, from which these parameters refuse to be constructed. | `Visr.ParamConfig.biquad_config` |
| C97 | A signal routing parameter is created from every configuration. | `Visr.ParamConfig.routing_any` |
| C97 | A time-frequency parameter throws `std::bad_cast` for a configuration of another class; documented is `std::invalid_argument`. | `Visr.ParamConfig.exception_differs` |
| C98 | Time is documented as a monotonic clock which cannot be reset; constructing a second AudioSignalFlow for the same component resets it, and the blocks of both signal flows are counted together | `Visr.Clock.second_flow_resets`, `Visr.Clock.two_flows_add` |
| C98 | The block counter is not initialised by the constructor of the clock: reading the time before a signal flow has been accepted, e.g. in constructors, is undefined | `Visr.Clock.undefined_before_start` |
| C99 | The renderer applications never end when their standard input ends: they read the end of the file again and again in a busy loop (also when started in the background without a terminal) | `Visr.Application.end_of_input_ignored` |
| C99 | An unknown or missing audio interface is only refused after the whole renderer was built and its network ports were opened | `Visr.Application.unknown_interface_late` |
| C99 | The applications restore the handling of denormalised numbers only after a run without failure | `Visr.Application.mode_restored_partial` |
| C100 | An object that the sender removed is never removed at the receiver and is shown again after every second message. | `Visr.SceneLink.removed_object_returns` |
| C100 | If an even number of scene messages arrives in one block, the receiver shows the same scene as before. | `Visr.SceneLink.even_arrivals_invisible` |
| C101 | After more iterations than the buffer holds, `getMeasurements` in Python returns the newest `n % B` iterations first, because the position is read after the counter was reset. | `Visr.PyProfiler.newest_first` |
| C101 | With a measurement buffer of size zero, `getMeasurements` in Python divides by zero after the first iteration. | `Visr.PyProfiler.empty_buffer_undefined` |
| C102 | If the block size in bytes is not a multiple of 64, `data()` of a port has more columns than the block has samples, and `set` refuses matrices of the block length. | `Visr.PyPort.block_refused` |
| C102 | Elements assigned to the arrays that `data()`, `channel()` and `[]` of an output port return are lost, because these arrays are copies although declared `reference_internal`. | `Visr.PyPort.assignments_lost` |
| C102 | `set` with a column of packed records whose size is not a multiple of the sample size copies the wrong bytes. | `Visr.PyPort.packed_records_misread` |
| C102 | `for x in position` and `for f in biquadMatrix` in Python read out of bounds, because `__getitem__` does not check the index. | `Visr.PyPort.iteration_undefined` |
| C103 | The matrix convolver reads its option file outside of its handler, and index offsets with a zero step throw a C string: both abort the program without an exit code. | `Visr.ConvolverApp.failures_abort`, `zero_step_aborts` |
| C103 | The default audio interface of the matrix convolver, "default", is not a registered name. | `Visr.ConvolverApp.no_default_interface` |
| C103 | "--max-filters -1" is accepted and means no limit. | `Visr.ConvolverApp.negative_limit_accepted` |
| C104 | If the construction of a Python component fails after its module was loaded, for example because of a wrong class name, its Python objects are released after the local lock guard is gone; in the Python runner, which has no outer guard, this is undefined behaviour. | `Visr.PyLock.failed_construction_undefined` |
| C105 | The level and the priority of a new audio object, and azimuth, elevation and reference distance of a new plane wave, are indeterminate until they are set | `ObjectAttr.level_indeterminate` |
| C105 | `PointSource::channelLock()` (`isChannelLocked` in Python) is true for sources that were never locked or were unlocked; the lock distance itself is only used in code that is compiled out (`panning_calculator.cpp:318-477`) | `ObjectAttr.always_reported_locked` |
| C105 | `ChannelObject::setOutputChannels( labels, n )` ignores the labels, the copy is commented out | `ObjectAttr.array_labels_lost` |
| C105 | `resetNumberOfChannels()` does not adapt the outputs of a channel object, although one list for each channel is documented | `ObjectAttr.outputs_mismatch` |
| C106 | `LateReverb( onset )` with its default arguments, or with any empty list, always throws: an `else` is missing before the check of the size | `ReverbAttr.defaults_refused` |
| C106 | `setNumberOfDiscreteReflections()` is documented to invalidate all reflections, those that remain keep their values | `ReverbAttr.reflections_kept` |
| C107 | The feedthrough application does not start with `--input-channels 0` and outputs: the loop in the constructor of its signal flow never ends | `FeedthroughApp.no_inputs_hang` |
| C108 | The Python constructor of `PanningMatrixParameter` accepts arrays of start times and durations whose length differs from the number of objects. Afterwards arrays of the right length are refused. | `unfit_message` |
| C109 | Python item access of time-frequency parameters does not check indices: the channel after the last is the first channel of the next frame, the frame after the last is undefined behaviour, and further indices are ignored. | `index_not_checked` |
| C109 | The buffer of a time-frequency parameter without channels divides by zero. | `no_channels_undefined` |
