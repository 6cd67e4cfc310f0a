{"claims": [
  {"property": "C01", "status": "proved", "theorems": ["Visr.ChannelList.channelRange_construct", "Visr.ChannelList.channelRange_set", "Visr.ChannelList.channelRange_progression"], "note": ""},
  {"property": "C02", "status": "proved", "theorems": ["Visr.ChannelList.channelList_print_parse", "Visr.ChannelList.channelList_triple_not_readable", "Visr.ChannelList.channelList_print_empty_ub"], "note": "Round trip for every non-empty list without an index repeated three times in a row and with indices below 2^30 (the reader uses 32-bit int). The triple repetition and the empty list are proved to fail."},
  {"property": "C03", "status": "proved", "theorems": ["Visr.Protocol.messageQueue_is_fifo", "Visr.Protocol.messageQueue_exactly_once", "Visr.Protocol.messageQueue_clear"], "note": ""},
  {"property": "C04", "status": "proved", "theorems": ["Visr.Protocol.doubleBuffering_visible_value", "Visr.Protocol.doubleBuffering_before_first_swap", "Visr.Protocol.doubleBuffering_flag_raised", "Visr.Protocol.doubleBuffering_flag_reset", "Visr.Protocol.doubleBuffering_flag_detached", "Visr.Protocol.doubleBuffering_swap_copy"], "note": ""},
  {"property": "C05", "status": "proved", "theorems": ["Visr.Protocol.messageQueue_connections", "Visr.Protocol.doubleBuffering_connections", "Visr.Protocol.sharedData_connections", "Visr.Protocol.sharedData_read_latest"], "note": ""},
  {"property": "C06", "status": "proved", "theorems": ["Visr.CircularBuffer.circularBuffer_returns_past", "Visr.CircularBuffer.circularBuffer_checked_read", "Visr.CircularBuffer.circularBuffer_write_too_long", "Visr.CircularBuffer.circularBuffer_empty_ub", "Visr.CircularBuffer.circularBuffer_write_rejects"], "note": ""},
  {"property": "C07", "status": "partial", "theorems": ["Visr.FlexibleBuffer.flexibleBuffer_delays_by_one_period", "Visr.FlexibleBuffer.flexibleBuffer_strided_partial", "Visr.FlexibleBuffer.flexibleBuffer_strided_output_misplaced", "Visr.FlexibleBuffer.flexibleBuffer_unusable_after_exception"], "note": "Proved in full for the pointer-array overload. The strided overload stores output at the wrong place for playback sample strides other than 1 (flexible_buffer_wrapper.cpp:161): proved correct for stride 1, negation proved for stride 2."},
  {"property": "C08", "status": "proved", "theorems": ["Visr.Allocator.allocator_injective_and_stable", "Visr.Allocator.allocator_duplicate_leaks_channel"], "note": "Duplicate ids (excluded by the property) are shown to leak a channel."},
  {"property": "C09", "status": "proved", "theorems": ["Visr.RoutingParameter.signalRouting_is_partial_function", "Visr.RoutingParameter.signalRouting_construct"], "note": ""},
  {"property": "C10", "status": "partial", "theorems": ["Visr.SignalRouting.signalRouting_mixes_partial", "Visr.SignalRouting.signalRouting_invalid_index_ub", "Visr.SignalRouting.signalRouting_set_does_not_replace", "Visr.SignalRouting.signalRouting_setup_drops_control", "Visr.SignalRouting.signalRouting_setAll_not_atomic", "Visr.SignalRouting.signalRouting_remove"], "note": "Proved for all histories without cInvalidIndex as an input; entries with that index are accepted but make process() read out of bounds (negation proved)."},
  {"property": "C100", "status": "partial", "theorems": ["Visr.SceneLink.only_sent_objects", "Visr.SceneLink.scene_shown_partial", "Visr.SceneLink.even_arrivals_invisible", "Visr.SceneLink.removed_object_returns"], "note": "Proved: no failure, only sent objects, one per number, for every behaviour of the network; the objects of the last message are shown exactly when the number of arrivals in the block is odd. False of the code: removed objects are shown again after every second message (removed_object_returns), and an even number of arrivals in one block changes nothing that is shown (even_arrivals_invisible)."},
  {"property": "C101", "status": "partial", "theorems": ["Visr.PyProfiler.all_retrieved", "Visr.PyProfiler.recent_retrieved", "Visr.PyProfiler.oldest_first_partial", "Visr.PyProfiler.retrieved_once", "Visr.PyProfiler.newest_first", "Visr.PyProfiler.empty_buffer_undefined"], "note": "Proved: all iterations in order if they fit into the buffer, the right iterations each once if they do not, none retrieved twice. False of the code: after the buffer has wrapped the newest iterations come first (newest_first), and with a buffer of size zero the retrieval divides by zero (empty_buffer_undefined)."},
  {"property": "C102", "status": "partial", "theorems": ["Visr.PyPort.block_read_partial", "Visr.PyPort.block_written_partial", "Visr.PyPort.wrong_shape_refused", "Visr.PyPort.channels_found", "Visr.PyPort.iteration_visits_channels", "Visr.PyPort.arrays_keep", "Visr.PyPort.assignments_lost", "Visr.PyPort.block_refused", "Visr.PyPort.packed_records_misread", "Visr.PyPort.iteration_undefined"], "note": "Proved for blocks whose size in bytes is a multiple of 64 and matrices with whole strides. False of the code: other block sizes (block_refused), assignments to the arrays of an output (assignments_lost), packed records (packed_records_misread), iteration over positions and biquad matrices (iteration_undefined)."},
  {"property": "C103", "status": "partial", "theorems": ["Visr.ConvolverApp.convolver_settings", "Visr.ConvolverApp.exit_success", "Visr.ConvolverApp.plays_until_q", "Visr.ConvolverApp.exit_codes", "Visr.ConvolverApp.flow_outlives_interface", "Visr.ConvolverApp.all_released", "Visr.ConvolverApp.mode_restored", "Visr.ConvolverApp.interface_settings", "Visr.ConvolverApp.channels_mandatory", "Visr.ConvolverApp.too_many_routings", "Visr.ConvolverApp.zero_step_aborts", "Visr.ConvolverApp.no_default_interface", "Visr.ConvolverApp.failures_abort", "Visr.ConvolverApp.negative_limit_accepted"], "note": "Proved for every command line, failure and console input. Not true of the code: an option file with a wrong escape sequence and index offsets with a zero step abort the program instead of giving exit code one; the default audio interface does not exist; a limit of -1 is accepted as no limit. Texts of routings and the construction of the convolver are arbitrary outcomes."},
  {"property": "C104", "status": "partial", "theorems": ["Visr.PyLock.lock_held_partial", "Visr.PyLock.no_deadlock", "Visr.PyLock.lock_returned", "Visr.PyLock.initialise_leaves_lock_free", "Visr.PyLock.failed_construction_undefined"], "note": "Proved for all interleavings if failing constructors of wrappers are within a guard of the application, as in the object renderer. Not true of the code otherwise: the Python objects of a wrapper whose construction fails are released after the lock was returned. Time slices of Python and the end of the interpreter are not modelled."},
  {"property": "C105", "status": "partial", "theorems": ["Visr.ObjectAttr.attributes_partial", "Visr.ObjectAttr.int_attributes_partial", "Visr.ObjectAttr.level_indeterminate", "Visr.ObjectAttr.identity_kept", "Visr.ObjectAttr.channel_count", "Visr.ObjectAttr.reset_invalidates", "Visr.ObjectAttr.channel_set", "Visr.ObjectAttr.refused_changes_nothing", "Visr.ObjectAttr.python_channels", "Visr.ObjectAttr.python_position", "Visr.ObjectAttr.outputs_set", "Visr.ObjectAttr.output_set", "Visr.ObjectAttr.outputs_match_partial", "Visr.ObjectAttr.outputs_mismatch", "Visr.ObjectAttr.array_labels_lost", "Visr.ObjectAttr.always_reported_locked", "Visr.ObjectAttr.not_locked_iff", "Visr.ObjectAttr.clone_same", "Visr.ObjectAttr.others_unchanged", "Visr.ObjectAttr.clone_appended", "Visr.ObjectAttr.no_outputs_before_channels", "Visr.ObjectAttr.outputs_adapted"], "note": "Histories, channels, outputs, clones and Python access proved. False of the code, proved as negations: indeterminate level, priority and plane wave attributes; outputs not adapted to a new number of channels; array of labels ignored; unlocked sources reported as locked."},
  {"property": "C106", "status": "partial", "theorems": ["Visr.ReverbAttr.band_history", "Visr.ReverbAttr.onset_history", "Visr.ReverbAttr.nine_bands", "Visr.ReverbAttr.ten_filters", "Visr.ReverbAttr.filters_set", "Visr.ReverbAttr.filter_set", "Visr.ReverbAttr.reflection_attributes", "Visr.ReverbAttr.one_reflection_changed", "Visr.ReverbAttr.reflections_set", "Visr.ReverbAttr.reflections_kept", "Visr.ReverbAttr.late_constructed_partial", "Visr.ReverbAttr.defaults_refused"], "note": "All histories proved. False of the code, proved as negations: default (empty) lists make the construction of late reverberation settings fail; a new number of reflections keeps the values of those that remain."},
  {"property": "C107", "status": "partial", "theorems": ["Visr.FeedthroughApp.feedthrough_partial", "Visr.FeedthroughApp.inputs_used", "Visr.FeedthroughApp.no_inputs_hang"], "note": "Proved for at least one input, and for no outputs. False of the code for no inputs and at least one output: the construction never ends (no_inputs_hang)."},
  {"property": "C108", "status": "partial", "theorems": ["Visr.PanningDsp.properties_read_back_partial", "Visr.PanningDsp.assignment_accepted", "Visr.PanningDsp.constructed", "Visr.PanningDsp.unfit_message"], "note": "The constructor from arrays does not check the numbers of start times and durations (unfit_message); proved for all other messages."},
  {"property": "C109", "status": "partial", "theorems": ["Visr.TFParameter.array_round_trip_partial", "Visr.TFParameter.other_dimensions_refused", "Visr.TFParameter.assigned_element", "Visr.TFParameter.index_not_checked", "Visr.TFParameter.no_channels_undefined"], "note": "Indices outside the dimensions are not refused (index_not_checked), and a parameter without channels cannot be used as an array (no_channels_undefined); the rest is proved for all dimensions, elements and alignments."},
  {"property": "C11", "status": "proved", "theorems": ["Visr.GainVector.gainVector_transition", "Visr.GainVector.gainVector_settles", "Visr.GainVector.gainVector_wrong_size"], "note": "Every output sample of every block follows the specified linear transition from the gains before to the gains after the latest change."},
  {"property": "C12", "status": "partial", "theorems": ["Visr.GainMatrix.gainMatrix_continues", "Visr.GainMatrix.gainMatrix_double_set_jumps", "Visr.GainMatrix.rclGainMatrix_control_input_restarts", "Visr.GainVector.gainVector_interrupted_jumps", "Visr.DelayVector.delayVector_continuous_partial", "Visr.DelayVector.delayVector_interrupted_jumps"], "note": "GainMatrix continues from the value reached; the property is false for GainVector and DelayVector when a change interrupts a transition and for GainMatrix when two changes arrive without a block between them (proved negations)."},
  {"property": "C13", "status": "proved", "theorems": ["Visr.GainMatrix.gainMatrix_initial", "Visr.GainMatrix.gainMatrix_product", "Visr.GainMatrix.rclGainMatrix_no_control"], "note": "Output is the product of the (ramped) gain matrix and the input vectors."},
  {"property": "C14", "status": "proved", "theorems": ["Visr.Convolver.convolver_stream", "Visr.Convolver.convolver_create", "Visr.Convolver.convolver_no_taps_ub", "Visr.Convolver.remove_existing_ub", "Visr.Convolver.remove_absent_true", "Visr.Convolver.isDft_law"], "note": "Exact arithmetic; the FFT library is assumed to compute the DFT (IsDft). removeRoutingEntry is excluded because it is undefined behaviour in the code (remove_existing_ub)."},
  {"property": "C15", "status": "proved", "theorems": ["Visr.Crossfade.crossfade_stream", "Visr.Crossfade.weight_facts", "Visr.Crossfade.setImpulseResponse_index_ub", "Visr.Crossfade.routing_index_ub", "Visr.Crossfade.initFilters_mutes"], "note": "Exact arithmetic, FFT contract as in C14. removeRoutingEntry and a later initFilters are excluded; the findings show what goes wrong there."},
  {"property": "C16", "status": "proved", "theorems": ["Visr.DelayLine.delayLine_nearest", "Visr.DelayLine.delayLine_integer", "Visr.DelayLine.delayLine_construct"], "note": ""},
  {"property": "C17", "status": "proved", "theorems": ["Visr.Lagrange.lagrange_coefficients_are_basis", "Visr.Lagrange.lagrange_coefficients_sum", "Visr.Lagrange.lagrange_coefficients_select", "Visr.Lagrange.lagrange_coefficients_reproduce"], "note": ""},
  {"property": "C18", "status": "proved", "theorems": ["Visr.Efl.alignmentIsPowerOfTwo_iff", "Visr.Efl.checkAlignment_iff", "Visr.Efl.nextAlignedSize_spec", "Visr.Efl.alignedArray_safe", "Visr.Efl.alignedArray_create", "Visr.Efl.alignedArray_resize", "Visr.Efl.alignedArray_swap", "Visr.Efl.alignedArray_wraps"], "note": "For requests below half of the address space; beyond, the size computation wraps (alignedArray_wraps)."},
  {"property": "C19", "status": "proved", "theorems": ["Visr.Efl.matrix_is_table", "Visr.Efl.matrix_positions_distinct", "Visr.Efl.matrix_moved_from_ub", "Visr.Efl.matrix_rejected_move_corrupts"], "note": "All operations except moves; moved-from matrices and rejected move assignments leave unusable objects (proved)."},
  {"property": "C20", "status": "partial", "theorems": ["Visr.Efl.vectorRamp_on_line", "Visr.Efl.vectorRamp_single_exclusive", "Visr.Efl.vectorRamp_single_inclusive"], "note": "False for single-element vectors whose ends are both inclusive or both exclusive (negation proved)."},
  {"property": "C21", "status": "proved", "theorems": ["Visr.Biquad.biquad_stream", "Visr.Biquad.biquad_partition", "Visr.Biquad.iir_constant", "Visr.Biquad.biquad_default_is_mute"], "note": "Any constructor with coefficients, any history of setter calls and blocks of any lengths; the constructor without coefficients is documented flat but is silent (proved as biquad_default_is_mute). Exact arithmetic."},
  {"property": "C22", "status": "proved", "theorems": ["Visr.Schedule.schedule_correct", "Visr.Schedule.initialiseSchedule_correct", "Visr.Schedule.checkAcyclicGraph_misses_cycles", "Visr.Schedule.schedule_unknown_sender_ub", "Visr.Schedule.schedule_runs_every_atom"], "note": "The DFS check alone misses cycles (proved), the topological sort catches them."},
  {"property": "C23", "status": "proved", "theorems": ["Visr.Placeholder.audio_placeholders_resolved", "Visr.Placeholder.audio_isolated_loop_ignored", "Visr.Placeholder.resolveAudio_resolved", "Visr.Startup.accepted_flow_initialised"], "note": "For connection maps in which every receive channel has at most one sender, as ensured by the connection check (C25)."},
  {"property": "C24", "status": "partial", "theorems": ["Visr.Placeholder.param_first_sender_resolved", "Visr.Placeholder.param_placeholders_resolved_partial", "Visr.Placeholder.param_dead_end_called_loop", "Visr.Placeholder.param_senders_lost"], "note": "False in general: if several senders are connected to a composite port all but the first are lost (param_senders_lost). Proved for flows in which every parameter port has one sender."},
  {"property": "C25", "status": "partial", "theorems": ["Visr.Flow.connectionCheck_iff_partial", "Visr.Flow.sampleType_mismatch_accepted"], "note": "Everything except sample types, which the check never compares (negation proved)."},
  {"property": "C26", "status": "proved", "theorems": ["Visr.Layout.buffers_assigned", "Visr.Layout.atomic_buffers_partial", "Visr.Layout.copies_succeed_partial", "Visr.Layout.mistyped_receiver_reads_elsewhere", "Visr.Layout.atomic_mixed_types_overlap", "Visr.Layout.double_copy_rejected", "Visr.Startup.accepted_flow_initialised"], "note": "Composite flows in full generality; atomic top-level flows with a single sample type (the mixed case is refuted). The preconditions (equal sample types of connected ports, one sample type in atomic flows) are shown to be necessary. Copies of double signals can be rejected at run time by the alignment check (double_copy_rejected)."},
  {"property": "C27", "status": "proved", "theorems": ["Visr.Execute.run_iff_solution", "Visr.Execute.solution_unique", "Visr.Execute.run_audio_equations", "Visr.Execute.schedule_independent", "Visr.Execute.process_correct", "Visr.Execute.process_schedule_independent", "Visr.Startup.accepted_flow_processes"], "note": "Component functions are arbitrary functions of their state and the cells of their ports. accepted_flow_processes combines connection check, resolution, buffers, schedule and execution."},
  {"property": "C28", "status": "proved", "theorems": ["Visr.Execute.channel_number", "Visr.Execute.channel_of_number", "Visr.Execute.channel_count", "Visr.Execute.port_queries_out_of_range", "Visr.Execute.port_index", "Visr.Execute.port_index_name"], "note": ""},
  {"property": "C29", "status": "proved", "theorems": ["Visr.Execute.block_count"], "note": "All histories of calls, with arbitrary changes of components and parameters between calls. Counter without wrap-around."},
  {"property": "C30", "status": "proved", "theorems": ["Visr.Tree.names_unique", "Visr.Tree.create_child", "Visr.Tree.create_port", "Visr.Tree.destroy_component", "Visr.Tree.destroy_port", "Visr.Tree.find_component", "Visr.Tree.find_port", "Visr.Tree.path_exists", "Visr.Tree.path_unique", "Visr.Tree.fullName_path", "Visr.Tree.fullName_injective"], "note": "All histories of creations, destructions and connection requests, with dangling pointers as undefined behaviour. Limits proved: top-level name may coincide, children called this cannot be found, colons make full names ambiguous, ports must not outlive their component."},
  {"property": "C31", "status": "proved", "theorems": ["Visr.Registry.name_type_inverse", "Visr.Registry.query_fails", "Visr.Registry.register_accepted", "Visr.Registry.register_rejected", "Visr.Registry.registered", "Visr.Registry.unregistered", "Visr.Registry.number_counts", "Visr.Registry.parameter_registered", "Visr.Registry.parameter_unregistered", "Visr.Registry.parameter_shared_type_lost"], "note": "Any history of registrations and unregistrations; also the parameter type factory."},
  {"property": "C32", "status": "proved", "theorems": ["Visr.Profiler.statistics_exact", "Visr.Profiler.other_queries_agree", "Visr.Profiler.wrong_size", "Visr.Profiler.measurements_exact", "Visr.Profiler.measurements_complete", "Visr.Profiler.mean_without_iterations", "Visr.Profiler.variance_without_iterations", "Visr.Profiler.measurement_count_exceeds_buffer"], "note": "Exact arithmetic over a field of characteristic 0; also the raw measurement ring buffer."},
  {"property": "C33", "status": "proved", "theorems": ["Visr.ObjectVector.vectors_are_maps", "Visr.ObjectVector.update_node_by_node", "Visr.ObjectVector.unlisted_unchanged", "Visr.ObjectVector.fill_all_or_nothing", "Visr.ObjectVector.update_outcomes", "Visr.ObjectVector.complete_accepted", "Visr.ObjectVector.assign_self_empties", "Visr.ObjectVector.insert_own_is_ub", "Visr.ObjectVector.bad_index_escapes"], "note": "Histories over any number of vectors refine maps from ids to objects, for all operations but self assignment and insertion of an own element (findings); messages are applied node by node, a refused node changes nothing, fillObjectVector is all or nothing. Numbers, labels, equaliser and room nodes are opaque values."},
  {"property": "C34", "status": "proved", "theorems": ["Visr.Udp.exactly_once_in_order", "Visr.Udp.no_data_race", "Visr.Udp.return_delivers_all", "Visr.Udp.process_can_return", "Visr.Udp.error_sends_empty_message"], "note": "All interleavings of handler steps and process() steps, with the mutex."},
  {"property": "C35", "status": "partial", "theorems": ["Visr.FirMatrix.valid_messages_applied_partial", "Visr.FirMatrix.crossfading_messages_applied_partial", "Visr.FirMatrix.bad_filter_throws", "Visr.FirMatrix.bad_filter_blocks", "Visr.FirMatrix.bad_single_blocks", "Visr.FirMatrix.bad_routings_block", "Visr.FirMatrix.crossfading_bad_filter_blocks"], "note": "False of the code: status(Error) throws, so a rejected message stays at the head of its queue and every later process() throws. Proved: accepted messages are all consumed and applied in order."},
  {"property": "C36", "status": "proved", "theorems": ["Visr.Compensation.compensation_aligned", "Visr.Compensation.equal_level", "Visr.Compensation.virtual_speakers_ub", "Visr.Compensation.coincident_is_nan"], "note": "Arrays without virtual loudspeakers, all histories of positions; with virtual loudspeakers the code writes out of bounds (finding)."},
  {"property": "C37", "status": "proved", "theorems": ["Visr.Vbap.inside_exact", "Visr.Vbap.inside_exact_2D", "Visr.Vbap.rerouted", "Visr.Vbap.no_virtual", "Visr.Vbap.normalised", "Visr.Vbap.inside_unit_power", "Visr.Vbap.outside_best", "Visr.Vbap.create_ok", "Visr.Vbap.flat_triplet_hides", "Visr.Vbap.height_one_is_silent", "Visr.Vbap.source_at_listener"], "note": "Real arithmetic; all layouts with proper triplets, listener and source positions. Degenerate triplets, 2D arrays at height 1 and sources at the listener are findings."},
  {"property": "C38", "status": "partial", "theorems": ["Visr.TimeFreq.analysis_frames", "Visr.TimeFreq.synthesis_one_hop_partial", "Visr.TimeFreq.synthesis_several_hops", "Visr.TimeFreq.several_hops_lose_samples", "Visr.TimeFreq.long_period_ub", "Visr.TimeFreq.reconstruction_partial", "Visr.TimeFreq.matching_normalisations", "Visr.TimeFreq.default_normalisations", "Visr.TimeFreq.hann_cola", "Visr.TimeFreq.hann_half_overlap", "Visr.TimeFreq.zero_hop_ub", "Visr.TimeFreq.broken_hop_rejected", "Visr.TimeFreq.long_transform_rejected", "Visr.TimeFreq.short_window_throws", "Visr.TimeFreq.long_window_ub", "Visr.TimeFreq.unaligned_window_throws", "Visr.TimeFreq.isDft_inverts"], "note": "Analysis proved for every admissible configuration and any number of hops; synthesis and reconstruction proved for one hop per period. With several hops per period the property is false of the code (several_hops_lose_samples, exact behaviour in synthesis_several_hops)."},
  {"property": "C39", "status": "proved", "theorems": ["Visr.TFParameter.parameter_is_cube", "Visr.TFParameter.cells_distinct", "Visr.TFParameter.slices_agree", "Visr.TFParameter.bins_real_to_complex", "Visr.TFParameter.frames_without_channels"], "note": "All programs on several objects against a three-dimensional table, under the documented index ranges; finding: numberOfFrames() divides by zero without channels"},
  {"property": "C40", "status": "partial", "theorems": ["Visr.Routing.filter_unique", "Visr.Routing.filter_getEntry", "Visr.Routing.filter_add", "Visr.Routing.filter_remove", "Visr.Routing.filter_construct", "Visr.Routing.filter_json_partial", "Visr.Routing.filter_json_atomic", "Visr.Routing.filter_json_unchecked", "Visr.Routing.gain_unique", "Visr.Routing.gain_getEntry", "Visr.Routing.gain_add", "Visr.Routing.gain_remove", "Visr.Routing.gain_construct", "Visr.Routing.gain_json_partial", "Visr.Routing.gain_json_atomic", "Visr.Routing.gain_remove_by_position_wrong", "Visr.Routing.gain_json_unchecked"], "note": "False of the code: removal of a sparse gain routing by position addresses the wrong entry, and JSON sequences of different lengths are not all rejected. Everything else is proved."},
  {"property": "C41", "status": "partial", "theorems": ["Visr.ChannelObject.construct_ok", "Visr.ChannelObject.routing_is_last_request", "Visr.ChannelObject.requests_exact", "Visr.ChannelObject.routes_requested_partial", "Visr.ChannelObject.unchanged_input", "Visr.ChannelObject.routes_excess_channel", "Visr.ChannelObject.shared_loudspeaker_lost", "Visr.ChannelObject.excess_channel_blocks_update", "Visr.ChannelObject.inconsistent_object_blocks"], "note": "False in general: signal index n is routed for n channels, and only the last of several channels for a loudspeaker is kept; the exact routing is proved, and the property under the two exclusions"},
  {"property": "C42", "status": "proved", "theorems": ["Visr.InterpParam.number_history", "Visr.InterpParam.construct_accepts", "Visr.InterpParam.lists_history", "Visr.InterpParam.counts_equal", "Visr.InterpParam.setter_keeps_number", "Visr.InterpParam.config_not_compared"], "note": "All constructor and setter histories against an abstract object with a fixed number of interpolants; finding: port configurations are not compared"},
  {"property": "C43", "status": "proved", "theorems": ["Visr.Rotation.rotate_preserves_length", "Visr.Rotation.rotate_preserves_dot", "Visr.Rotation.norm_preserved", "Visr.Rotation.rotate_compose", "Visr.Rotation.rotate_conj_undoes", "Visr.Rotation.quat_monoid", "Visr.Rotation.rotation_vector_turns", "Visr.Rotation.ypr_rotates", "Visr.Rotation.ypr_read_back", "Visr.Rotation.ypr_describes", "Visr.Rotation.rotation_vector_read_back", "Visr.Rotation.slerp_unit", "Visr.Rotation.position_slerp", "Visr.Rotation.listener_transform_rigid", "Visr.Rotation.listener_transform_compose", "Visr.Rotation.listener_rotate_back", "Visr.Rotation.vec_normalise", "Visr.Rotation.quat_normalise"], "note": "Algebraic parts over any commutative ring, angle parts over the reals; rounding not modelled. Findings: the angle between quaternions is wrong (angle_wrong), interpolation of equal quaternions is NaN (slerp_equal_is_nan), the constructor ignores its normalise flag."},
  {"property": "C44", "status": "proved", "theorems": ["Visr.RoutingParameter.routingString_parse", "Visr.RoutingParameter.routingString_blank_separator_rejected"], "note": "The code comment promises white space as a separator; proved that it is rejected."},
  {"property": "C45", "status": "proved", "theorems": ["Visr.ChannelList.sequence_expands", "Visr.ChannelList.sequence_zero_step", "Visr.ChannelList.sequence_away_accepted", "Visr.ChannelList.sequence_overflow_ub"], "note": "Texts without blanks; numbers below 2^30 (beyond, 32-bit overflow is undefined behaviour: sequence_overflow_ub)."},
  {"property": "C46", "status": "partial", "theorems": ["Visr.DelayLine.delayLine_fractional_partial", "Visr.DelayLine.fractional_polynomial", "Visr.DelayLine.delayLine_rejects", "Visr.DelayLine.delayLine_near_maximum_ub", "Visr.DelayLine.delayLine_methodDelay_wrong", "Visr.DelayLine.delayLine_construct"], "note": "Proved for delays at least half the interpolation order below the maximum; nearer to the maximum the code reads outside the ring buffer (proved), and the method delay getters return the maximum delay (proved)."},
  {"property": "C47", "status": "proved", "theorems": ["Visr.DelayVector.delayVector_output", "Visr.DelayVector.delayVector_wrong_size", "Visr.DelayVector.delayVector_immediate_rejected"], "note": "All interpolation methods and policies; changes arrive after the previous transition is complete, as in the quantifier; delays usable by the delay line (C46)."},
  {"property": "C48", "status": "proved", "theorems": ["Visr.Tree.audio_connection", "Visr.Tree.audio_connection_all", "Visr.Tree.param_connection", "Visr.Tree.audio_connection_names"], "note": "Ports and their components must exist. Connections survive the destruction of a child (connection_outlives_child)."},
  {"property": "C49", "status": "proved", "theorems": ["Visr.Rotation.message_roundtrip_quaternion", "Visr.Rotation.message_roundtrip_rotation_vector", "Visr.Rotation.message_roundtrip_ypr", "Visr.Rotation.message_two_orientations", "Visr.Rotation.message_atomic", "Visr.Rotation.message_defaults"], "note": "Text of numbers not modelled. At the poles the yaw/pitch/roll format loses the orientation (ypr_pole_lost)."},
  {"property": "C50", "status": "partial", "theorems": ["Visr.Decoder.period_exact", "Visr.Decoder.periods_inv", "Visr.Decoder.update_lost", "Visr.Decoder.two_messages_invisible", "Visr.Decoder.last_message_visible_partial", "Visr.Decoder.poison_message"], "note": "False of the code: the two buffers are written in turn (update_lost, two_messages_invisible). period_exact gives the exact behaviour; the partial theorem covers objects listed in the last of an odd number of accepted messages."},
  {"property": "C51", "status": "partial", "theorems": ["Visr.Decoder.nothing_valid", "Visr.Decoder.output_is_valid", "Visr.Decoder.newest_of_one_face_partial", "Visr.Decoder.newest_of_smallest_face_partial", "Visr.Decoder.smaller_face_hidden", "Visr.Decoder.largest_face_ignored", "Visr.Decoder.older_replaces_newer"], "note": "False for messages out of order (smaller_face_hidden, older_replaces_newer) and for the largest face number; proved for one face and for messages in order of time."},
  {"property": "C52", "status": "partial", "theorems": ["Visr.Encode.encode_update_partial", "Visr.Encode.encode_fill_partial", "Visr.Encode.extent_not_readable", "Visr.Encode.empty_channel_object_ub", "Visr.Encode.inconsistent_channel_object_throws", "Visr.Encode.small_gain_lost", "Visr.Encode.late_values_rounded", "Visr.Encode.unset_channel_lost", "Visr.Encode.bad_labels", "Visr.Encode.late_level_changed", "Visr.Encode.extent_lacks_only_diffuseness", "Visr.Encode.reflection_filters"], "note": "Proved for every scene of representable objects; the full property is false of the code, the negations are proved: point sources with extent are unreadable, channel objects without channels are undefined behaviour, unset channel indices are lost silently, labels with other characters change or are refused, equaliser gains below epsilon and late reverberation values beyond six digits are changed."},
  {"property": "C53", "status": "proved", "theorems": ["Visr.EqDesign.equaliser_response", "Visr.EqDesign.equaliser_stable", "Visr.EqDesign.too_many_settings", "Visr.EqDesign.gain_at_zero", "Visr.EqDesign.gain_at_top", "Visr.EqDesign.gain_at_centre", "Visr.EqDesign.allpass_gain", "Visr.EqDesign.default_setting", "Visr.EqDesign.above_half_sampling_frequency_unstable"], "note": "Real-number model; rounding is not modelled. Settings above half the sampling frequency are accepted and give unstable filters (above_half_sampling_frequency_unstable)."},
  {"property": "C54", "status": "partial", "theorems": ["Visr.ObjectEq.scene_applied_partial", "Visr.ObjectEq.bad_scene_blocks", "Visr.ObjectEq.no_channels_blocks", "Visr.ObjectEq.unused_channel_equaliser_returns"], "note": "Missing: equalisers of channels without an object are flat; false of the code (unused_channel_equaliser_returns). A scene that does not fit changes nothing, but every later processing call throws until a new scene arrives."},
  {"property": "C55", "status": "partial", "theorems": ["Visr.DelayMatrix.delayMatrix_output_partial", "Visr.DelayMatrix.delayMatrix_interrupted_jumps", "Visr.DelayMatrix.delayMatrix_wrong_size", "Visr.DelayMatrix.delayMatrix_setup_refused"], "note": "Proved for changes that arrive after the previous transition is complete; a change during a transition jumps (delayMatrix_interrupted_jumps)."},
  {"property": "C56", "status": "partial", "theorems": ["Visr.SparseGain.sparse_all_ok", "Visr.SparseGain.sparse_settled", "Visr.SparseGain.sparse_initial", "Visr.SparseGain.sparse_gain_transition", "Visr.SparseGain.sparse_routing_transition_partial", "Visr.SparseGain.sparse_new_entry_starts_from_old_gain", "Visr.SparseGain.sparse_interrupted_jumps", "Visr.SparseGain.sparse_both_changes_jump", "Visr.SparseGain.sparse_bad_routings_block", "Visr.SparseGain.sparse_points_ignored", "Visr.SparseGain.add_sum", "Visr.SparseGain.nullSource_zero"], "note": "Missing: new routings start from zero, transitions continue from the gain reached, both false of the code (sparse_new_entry_starts_from_old_gain, sparse_interrupted_jumps, sparse_both_changes_jump)."},
  {"property": "C57", "status": "partial", "theorems": ["Visr.Panning.scene_applied_partial", "Visr.Panning.point_source_direction", "Visr.Panning.negative_gain_is_nan", "Visr.Panning.listener_waits", "Visr.Panning.quiet", "Visr.Panning.no_gains_blocks", "Visr.Panning.unknown_label", "Visr.Panning.channel_out_of_range", "Visr.Panning.plane_wave_in_degrees", "Visr.Panning.default_normalisation", "Visr.Panning.diffusion_gain_partial", "Visr.Panning.extent_loses_diffuse_part", "Visr.Panning.diffusion_wrong_size"], "note": "False of the code for sources with a negative panning gain (NaN at high frequencies), listener moves without a new scene, plane waves given in degrees, extents in DiffusionGainCalculator; unknown labels and channel numbers are undefined behaviour; a direction without gains blocks the component. Proved for scenes that can be rendered."},
  {"property": "C58", "status": "partial", "theorems": ["Visr.Cap.cap_multi_partial", "Visr.Cap.median_plane_is_nan", "Visr.Cap.origin_is_silent", "Visr.Cap.negative_gain_unlimited", "Visr.Cap.cap_two_balanced", "Visr.Cap.cap_two_partial", "Visr.Cap.facing_away_inverts", "Visr.Cap.cap_two_hf_partial", "Visr.Cap.high_frequency_nan", "Visr.Cap.high_frequency_silent", "Visr.Cap.aural_axis", "Visr.Cap.aural_axis_differs", "Visr.Cap.initial_axis", "Visr.Cap.vbip_inside", "Visr.Cap.vbip_outside", "Visr.Cap.vbip_2D_undefined", "Visr.Cap.cap_scene_partial", "Visr.Cap.cap_scene_total", "Visr.Cap.cap_follows_listener", "Visr.Cap.diffuseness_ignored", "Visr.Cap.listener_move_ignored", "Visr.Cap.directions_seen", "Visr.Cap.vbip_inside_2D", "Visr.Cap.vbip_outside_2D", "Visr.Cap.vbip_infinite", "Visr.Cap.vbip_inside_infinite", "Visr.Cap.vbip_outside_infinite", "Visr.Cap.fade_has_no_effect"], "note": "False of the code as stated: loudspeakers in the median plane give NaN, a source at the origin is silent, negative gains are not limited, two-loudspeaker gains change sign (or become NaN) if the listener faces away, 2D arrays from files read out of range, diffuseness and listener moves without a new scene are ignored; negations proved."},
  {"property": "C59", "status": "partial", "theorems": ["Visr.CoreRenderer.constructs_iff_valid_partial", "Visr.CoreRenderer.renderer_accepted_partial", "Visr.CoreRenderer.renderer_output_partial", "Visr.CoreRenderer.tracking_rejected", "Visr.CoreRenderer.tracking_subwoofers_unconnected", "Visr.CoreRenderer.tracking_equaliser_subwoofers_throws", "Visr.CoreRenderer.no_delays_undefined", "Visr.CoreRenderer.connection_accepted_iff", "Visr.CoreRenderer.parameters_sized", "Visr.CoreRenderer.parameters_follow_scene"], "note": "False with listener tracking: the connection check always fails, the subwoofers have no signal, and with output equalisation and subwoofers the construction throws. Undefined for an array without delay adjustments. Proved for everything else."},
  {"property": "C60", "status": "partial", "theorems": ["Visr.AllRad.constructs_iff", "Visr.AllRad.hoa_decoded_partial", "Visr.AllRad.plays_regular_array", "Visr.AllRad.runs", "Visr.AllRad.error_skips_later_sources", "Visr.AllRad.higher_order_undefined", "Visr.AllRad.virtual_rejected", "Visr.AllRad.virtual_undefined", "Visr.AllRad.unsuitable_scene_reported"], "note": "Decoding proved for scenes that suit the decoder. False otherwise: an inconsistent HOA source keeps all later ones from being decoded, and a source of a higher order than the decoder makes process() read out of bounds (both proved)."},
  {"property": "C61", "status": "proved", "theorems": ["Visr.AllRad.product_correct"], "note": "Over the real numbers; rounding not modelled."},
  {"property": "C62", "status": "partial", "theorems": ["Visr.Reverb.scene_rendered_partial", "Visr.Reverb.places_stable", "Visr.Reverb.reflection_direction", "Visr.Reverb.failed_scene_half_applied"], "note": "Accepted scenes are rendered completely; false for rejected scenes: the panning gains are shared and may already be changed (failed_scene_half_applied), all other parameters are unchanged. Panning in terms of directions for 3D arrays without virtual loudspeakers."},
  {"property": "C63", "status": "proved", "theorems": ["Visr.Reverb.late_messages", "Visr.Reverb.unchanged_scene_silent"], "note": "Tolerance, ids and onset delays are hypotheses; the tolerance of the code is the float epsilon."},
  {"property": "C64", "status": "proved", "theorems": ["Visr.LateFilter.filters_sent", "Visr.LateFilter.realises_unique", "Visr.LateFilter.silent_filter", "Visr.LateFilter.filter_bound", "Visr.LateFilter.create_spec", "Visr.LateFilter.long_attack_truncates", "Visr.LateFilter.skipped_filter_sounds", "Visr.LateFilter.bad_channel_blocks", "Visr.LateFilter.negative_onset_undefined"], "note": "For messages outside the quantifier the code misbehaves (partial filters after a reported skip, a queue blocked for good, undefined conversions); these are proved too."},
  {"property": "C65", "status": "proved", "theorems": ["Visr.Delivery.prompt_delivery", "Visr.Delivery.eventual_delivery", "Visr.Delivery.backlog_grows"], "note": "backlog_grows shows that without the condition of prompt_delivery (the renderer's default is one update per period) the delay is unbounded."},
  {"property": "C66", "status": "proved", "theorems": ["Visr.ReverbRenderer.constructs_iff", "Visr.ReverbRenderer.renderer_accepted", "Visr.ReverbRenderer.renderer_ports", "Visr.ReverbRenderer.plays_early_and_late", "Visr.ReverbRenderer.parameters_follow_scene"], "note": "All configurations. Exceptions in the constructors of contained components other than the decorrelation filter count are not modelled."},
  {"property": "C67", "status": "partial", "theorems": ["Visr.SignalFlows.baseline_accepted_partial", "Visr.SignalFlows.baseline_plays", "Visr.SignalFlows.baseline_tracking_rejected", "Visr.SignalFlows.bunch_accepted_iff", "Visr.SignalFlows.delay_accepted", "Visr.SignalFlows.delay_plays", "Visr.SignalFlows.two_delays_throw", "Visr.SignalFlows.gain_throws", "Visr.SignalFlows.feedthrough_accepted", "Visr.SignalFlows.feedthrough_hop_zero", "Visr.SignalFlows.baseline_scene", "Visr.SignalFlows.delay_parameters", "Visr.SignalFlows.feedthrough_plays"], "note": "False of the code: BaselineRenderer with tracking is never accepted, BunchRenderer is accepted only if the numbers of objects and outputs agree, the GainMatrix flow always throws, the DelayVector flow ignores its name, hop size zero is undefined behaviour. Proved for everything else."},
  {"property": "C68", "status": "partial", "theorems": ["Visr.InterpConvolver.interpolation_stream_partial", "Visr.InterpConvolver.interpolation_stream_documented", "Visr.InterpConvolver.blend_sound", "Visr.InterpConvolver.routing_limit_wrong", "Visr.InterpConvolver.interpolant_id_ub", "Visr.InterpConvolver.no_interpolants_ub", "Visr.InterpConvolver.messages_applied_partial", "Visr.InterpConvolver.bad_interpolant_blocks"], "note": "All histories against the specification, for any FFT library that computes the DFT. False of the code: the limits for routings and stored filters are swapped, so documented ids are rejected or undefined; zero interpolants are undefined; a rejected interpolant message blocks the component for ever. Removal of routings is excluded (see C15)"},
  {"property": "C69", "status": "partial", "theorems": ["Visr.PanningDsp.gain_trajectory_partial", "Visr.PanningDsp.gain_trajectory_law", "Visr.PanningDsp.initial_transitions", "Visr.PanningDsp.create_check", "Visr.PanningDsp.interruption_jumps", "Visr.PanningDsp.stored_interruption_jumps", "Visr.PanningDsp.replaced_transition_cuts_off", "Visr.PanningDsp.late_message_blocks", "Visr.PanningDsp.missing_duration_ub", "Visr.PanningDsp.short_initial_transitions_ub"], "note": "Proved for all histories without interrupted transitions, late messages and wrapping end times; gain_trajectory_law gives the exact behaviour including interruptions. False of the code otherwise, see the negations."},
  {"property": "C70", "status": "partial", "theorems": ["Visr.PanningDsp.copy_equal_partial", "Visr.PanningDsp.assign_fails", "Visr.PanningDsp.ofLists_check", "Visr.PanningDsp.ofArrays_unchecked"], "note": "Copy construction and square assignments proved; assignment of non-square messages is proved to throw and to destroy the target."},
  {"property": "C71", "status": "partial", "theorems": ["Visr.UdpSender.transmitted_prefix", "Visr.UdpSender.transmitted_messages_partial", "Visr.UdpSender.no_undefined_behaviour", "Visr.UdpSender.no_failure_no_termination", "Visr.UdpSender.quiet_transmitted", "Visr.UdpSender.all_transmittable", "Visr.UdpSender.zero_byte_truncates", "Visr.UdpSender.osc_message_truncated", "Visr.UdpSender.failed_transmission_terminates", "Visr.UdpSender.oversized_message_blocks", "Visr.UdpSender.oversized_message_reaches", "Visr.UdpSender.blocked_process_throws"], "note": "Order, exactly-once, progress and absence of data races for all schedules. False of the code for messages with zero bytes in asynchronous mode (cut off), for failed transmissions in asynchronous mode (program terminated) and for oversized messages in synchronous mode (input blocked)."},
  {"property": "C72", "status": "partial", "theorems": ["Visr.Simd.calls_compute_partial", "Visr.Simd.processor_independent_partial", "Visr.Simd.selected_supported", "Visr.Simd.initialised_vectorised", "Visr.Simd.old_processor", "Visr.Simd.misaligned_rejected", "Visr.Simd.constant_faults", "Visr.Simd.constant_unchecked", "Visr.Simd.uninitialise_incomplete", "Visr.Simd.overlap_differs"], "note": "Partial because false of the code: vectorMultiplyConstantAddInplace<float> uses an aligned store regardless of the alignment and faults for accumulators that are not aligned to four elements (constant_faults), the functions that multiply with a constant do not check the alignment (constant_unchecked), and uninitialiseLibrary leaves one function (uninitialise_incomplete). Arithmetic is exact: rounding differences of fused operations are not modelled. The NEON versions are not modelled."},
  {"property": "C73", "status": "partial", "theorems": ["Visr.ArrayConfig.loaded_array_is_described_partial", "Visr.ArrayConfig.accepted_iff_wellFormed_partial", "Visr.ArrayConfig.malformed_is_rejected_partial", "Visr.ArrayConfig.padded_id_is_misplaced", "Visr.ArrayConfig.route_to_virtual_is_undefined", "Visr.ArrayConfig.subwoofer_of_virtual_is_undefined", "Visr.ArrayConfig.reload_is_rejected", "Visr.ArrayConfig.stale_id_after_second_load", "Visr.ArrayConfig.channel_of_virtual_is_undefined", "Visr.ArrayConfig.subwoofer_channel_zero_is_accepted"], "note": "Proved for an object that knows no ids yet and ids of regular loudspeakers without blanks; rejection additionally for configurations without references to virtual loudspeakers in routes and subwoofers. Outside these conditions the property is false of the code; negations are proved with concrete configurations."},
  {"property": "C74", "status": "partial", "theorems": ["Visr.PortAudio.blocks_are_exchanged_partial", "Visr.PortAudio.only_blocks_are_processed", "Visr.PortAudio.blocks_while_running", "Visr.PortAudio.no_undefined_behaviour_partial", "Visr.PortAudio.named_device_is_used_partial", "Visr.PortAudio.used_device", "Visr.PortAudio.default_device", "Visr.PortAudio.opened_stream", "Visr.PortAudio.shorter_name_is_preferred", "Visr.PortAudio.other_format_escapes", "Visr.PortAudio.c_string_escapes", "Visr.PortAudio.restart_is_undefined", "Visr.PortAudio.output_without_function_is_not_silence", "Visr.PortAudio.failed_construction_stays_initialised", "Visr.PortAudio.destroyed_owner_keeps_running", "Visr.PortAudio.zero_period_plays_nothing", "Visr.PortAudio.failures_are_reported", "Visr.PortAudio.buffers_are_disjoint"], "note": "Proved for the sample format float32Bit and until the first successful stop(). The rest is false of the code: other accepted formats make an exception leave the C callback, start() after stop() uses a closed stream, a device whose name is the beginning of the requested one is preferred, and a failed construction leaves the library initialised; the negations are proved. The PortAudio library is represented by its documented behaviour."},
  {"property": "C75", "status": "partial", "theorems": ["Visr.Jack.names_are_described_partial", "Visr.Jack.described_names_are_accepted", "Visr.Jack.invalid_text_is_rejected", "Visr.Jack.ports_while_started_partial", "Visr.Jack.start_succeeds_iff", "Visr.Jack.stop_deactivates", "Visr.Jack.connections_partial", "Visr.Jack.no_connections", "Visr.Jack.blocks_are_exchanged_partial", "Visr.Jack.other_blocks", "Visr.Jack.no_undefined_behaviour", "Visr.Jack.capture_duplicates_are_not_detected", "Visr.Jack.too_many_names_are_undefined", "Visr.Jack.autoconnect_of_one_direction_is_ignored", "Visr.Jack.external_ports_are_inherited", "Visr.Jack.names_with_colon_are_not_connected", "Visr.Jack.failed_start_leaves_client_active", "Visr.Jack.c_string_escapes", "Visr.Jack.output_without_function_is_not_silence"], "note": "False of the code for duplicate capture names, too many described ports (undefined behaviour), automatic connection of one direction only, elements inheriting the external port of the element before, names with a colon, and C strings thrown by the function: negations proved. The partial theorems exclude exactly these. The server is represented by its documented behaviour; operations during a callback are not modelled."},
  {"property": "C76", "status": "partial", "theorems": ["Visr.FilterFile.biquad_json_is_read", "Visr.FilterFile.biquad_json_is_accepted_iff", "Visr.FilterFile.biquad_json_round_trip", "Visr.FilterFile.biquad_xml_is_read", "Visr.FilterFile.failed_xml_load_keeps_section", "Visr.FilterFile.biquads_json_are_read", "Visr.FilterFile.biquads_json_are_accepted_iff", "Visr.FilterFile.biquads_json_round_trip", "Visr.FilterFile.biquads_xml_are_read", "Visr.FilterFile.matrix_json_is_read_partial", "Visr.FilterFile.matrix_of_rows", "Visr.FilterFile.set_filter_replaces_row_partial", "Visr.FilterFile.set_filter_rejects", "Visr.FilterFile.type_names", "Visr.FilterFile.section_is_read", "Visr.FilterFile.accepted_section_json", "Visr.FilterFile.failed_load_keeps_sections", "Visr.FilterFile.section_round_trip_partial", "Visr.FilterFile.sections_are_read", "Visr.FilterFile.sections_round_trip_partial", "Visr.FilterFile.tiny_gain_is_lost", "Visr.FilterFile.section_text_is_empty", "Visr.FilterFile.xml_string_is_a_file_name", "Visr.FilterFile.sections_xml_are_not_read_back", "Visr.FilterFile.biquad_xml_is_not_read_back", "Visr.FilterFile.biquads_xml_are_not_read_back", "Visr.FilterFile.matrix_json_is_not_read_back", "Visr.FilterFile.matrix_xml_is_ignored", "Visr.FilterFile.shorter_rows_are_accepted", "Visr.FilterFile.list_of_other_size_is_assigned", "Visr.FilterFile.empty_filter_is_undefined", "Visr.FilterFile.Demo.failed_json_load_modifies_section", "Visr.FilterFile.Demo.failed_json_load_modifies_list", "Visr.FilterFile.Demo.failed_json_load_modifies_matrix", "Visr.FilterFile.Demo.unreadable_a0_is_ignored", "Visr.FilterFile.Demo.unreadable_gain_is_ignored", "Visr.FilterFile.biquad_xml_is_accepted_iff", "Visr.FilterFile.biquads_xml_are_accepted_iff", "Visr.FilterFile.accepted_section_xml", "Visr.FilterFile.accepted_sections"], "note": "Reading is proved in full for sections and lists, and for matrices with rows of one positive length; round trips through JSON trees for biquad sections and lists, and for parametric sections whose gain is zero or not below the rounding unit. False of the code and refuted: XML writing of biquads, all serialisation of matrices except reading JSON, rows of differing length, parametric sections as JSON text or XML strings, parametric lists in XML, tiny gains, failed loads of biquads from JSON, unreadable a0 or gain."},
  {"property": "C77", "status": "partial", "theorems": ["Visr.MatrixText.decimal_number_read", "Visr.MatrixText.vector_read", "Visr.MatrixText.vector_accepted", "Visr.MatrixText.vector_rejected", "Visr.MatrixText.vector_rejects_trailing", "Visr.MatrixText.matrix_read", "Visr.MatrixText.matrix_empty", "Visr.MatrixText.matrix_ragged_rejected", "Visr.MatrixText.matrix_accepted", "Visr.MatrixText.matrix_rejected", "Visr.MatrixText.audio_matrix", "Visr.MatrixText.audio_vector", "Visr.MatrixText.audio_vector_rejected", "Visr.MatrixText.Demo.unseparated_numbers_accepted", "Visr.MatrixText.Demo.comment_swallows_following_lines", "Visr.MatrixText.Demo.comment_ends_at_semicolon", "Visr.MatrixText.Demo.incomplete_audio_accepted"], "note": "Proved for all texts and audio files described by the specification; everything accepted is characterised. Partial because the code accepts numbers without a separator between them, ignores the lines after a comment in vector texts, and does not report incomplete audio files (the exceptions are constructed, not thrown); these negations are proved. Rounding to the floating-point type and the limits of exponents are not modelled."},
  {"property": "C78", "status": "partial", "theorems": ["Visr.FloatSequence.denotes_exists_unique", "Visr.FloatSequence.sequence_read", "Visr.FloatSequence.long_range_rejected", "Visr.FloatSequence.zero_step_throws_string", "Visr.FloatSequence.sequence_accepted", "Visr.FloatSequence.sequence_rejected", "Visr.FloatSequence.sequence_read_back", "Visr.FloatSequence.Demo.empty_sequence_not_read_back", "Visr.FloatSequence.Demo.infinite_range_never_ends", "Visr.FloatSequence.nan_range_is_empty", "Visr.FloatSequence.infinite_bounds"], "note": "Proved for all texts described by the specification, in exact arithmetic; everything accepted is characterised. Partial because a step of zero throws a character string instead of a standard exception, an empty sequence cannot be read back, and ranges with infinite bounds never end (negations proved). Rounding, including the six digits written by toString and ranges whose step is lost by rounding, is not modelled."},
  {"property": "C79", "status": "partial", "theorems": ["Visr.FilterMatrix.names_read", "Visr.FilterMatrix.filters_placed_partial", "Visr.FilterMatrix.holds_unique", "Visr.FilterMatrix.filters_consecutive", "Visr.FilterMatrix.filters_too_large", "Visr.FilterMatrix.unreadable_file_rejected", "Visr.FilterMatrix.wrong_number_of_offsets_rejected", "Visr.FilterMatrix.no_files", "Visr.FilterMatrix.overlap_not_detected", "Visr.FilterMatrix.Demo.overlap_mixes_responses", "Visr.FilterMatrix.first_file_must_be_lowest", "Visr.FilterMatrix.Demo.disjoint_files_undefined", "Visr.FilterMatrix.Demo.disjoint_files_rejected", "Visr.FilterMatrix.Demo.disjoint_files_written_outside", "Visr.FilterMatrix.Demo.blank_list_is_a_file"], "note": "Proved for files whose places ascend in the order of the list (in particular without offsets). False of the code otherwise: the overlap test compares the wrong elements, so overlaps are never found for ascending starts, other orders access the vector outside its bounds or are rejected, and the number of filters is taken from the last file instead of the highest index, so that files are written outside the matrix."},
  {"property": "C80", "status": "partial", "theorems": ["Visr.Osc.decoded", "Visr.Osc.decoded_partial", "Visr.Osc.wire_value_unique", "Visr.Osc.never_reads_outside", "Visr.Osc.datagrams_in_order", "Visr.Osc.accepted_is_packet_partial", "Visr.Osc.delivered_from_packet_partial", "Visr.Osc.setup_iff", "Visr.Osc.setup_kinds", "Visr.Osc.wrong_type_is_zero", "Visr.Osc.negative_drops_the_rest", "Visr.Osc.empty_bundle_rejected", "Visr.Osc.Demo.negative_uint_drops", "Visr.Osc.Demo.integer_for_float", "Visr.Osc.Demo.unknown_type_drops_all", "Visr.Osc.Demo.blob_overflow_accepted"], "note": "False where an argument has another type (zero is delivered), for a negative number for an unsigned value (the rest of the datagram is dropped), for blobs declaring one of the four largest sizes (accepted) and for empty bundles (rejected); the negations are proved. decoded describes the result for every OSC packet."},
  {"property": "C81", "status": "partial", "theorems": ["Visr.Conversion.converted", "Visr.Conversion.variants", "Visr.Conversion.misaligned_rejected", "Visr.Conversion.outside_undefined", "Visr.Conversion.rint_nearest", "Visr.Conversion.nearest_unique", "Visr.Conversion.float_to_int_partial", "Visr.Conversion.int_round_trip", "Visr.Conversion.int_to_int", "Visr.Conversion.out_of_range_wraps", "Visr.Conversion.no_result", "Visr.Conversion.Demo.wraps"], "note": "The loops are proved for every element conversion. Conversion to integers is only to the nearest integer within the range of the type; outside it wraps (proved). Rounding of conversions to floating-point types is not modelled."},
  {"property": "C82", "status": "partial", "theorems": ["Visr.Hosts.mex_accepted_iff", "Visr.Hosts.mex_output_shape", "Visr.Hosts.mex_output_partial", "Visr.Hosts.mex_always_fails", "Visr.Hosts.mex_exception_passed", "Visr.Hosts.mex_empty", "Visr.Hosts.max_block_partial", "Visr.Hosts.max_failure_escapes", "Visr.Hosts.max_missing_samples_undefined", "Visr.Hosts.max_uninitialised", "Visr.Hosts.max_delay_vector_does_nothing", "Visr.Hosts.Demo.matlab_fails", "Visr.Hosts.Demo.short_block", "Visr.Hosts.max_mismatch_reported", "Visr.Hosts.max_without_context", "Visr.Hosts.max_delay_vector_reports"], "note": "False of the code: Matlab functions fail for every non-empty signal (mex_always_fails); mex_output_partial proves the transfer of samples for flows with the status the wrapper expects. In Max/MSP the block is processed as claimed if the host and the flow behave (max_block_partial); the failures are proved."},
  {"property": "C83", "status": "partial", "theorems": ["Visr.VectorFn.computed_partial", "Visr.VectorFn.misaligned_rejected", "Visr.VectorFn.aligned_iff", "Visr.VectorFn.copied_with_strides", "Visr.VectorFn.filled_with_stride", "Visr.VectorFn.strided_misaligned_rejected", "Visr.VectorFn.short_array_undefined", "Visr.VectorFn.overlap_differs", "Visr.VectorFn.subtract_reversed", "Visr.VectorFn.subtract_inplace_opposite", "Visr.VectorFn.ramp_scaling_release_unchecked"], "note": "Proved for all 21 functions except that two subtractions compute the subtrahend minus the minuend (negation proved). Exact arithmetic, no rounding. The implementations for other instruction sets are covered by C72, not here."},
  {"property": "C84", "status": "partial", "theorems": ["Visr.PyVector.result_stored_partial", "Visr.PyVector.unusable_rejected", "Visr.PyVector.read_only_rejected", "Visr.PyVector.misaligned_raises", "Visr.PyVector.never_outside_partial", "Visr.PyVector.others_unchanged", "Visr.PyVector.huge_count_undefined", "Visr.PyVector.result_lost", "Visr.PyVector.fill_integer_lost", "Visr.PyVector.copy_strided_partial", "Visr.PyVector.copy_strided_too_strict", "Visr.PyVector.copy_strided_undefined", "Visr.PyVector.copy_strided_wraps", "Visr.PyVector.convert_strided_partial", "Visr.PyVector.convert_strided_undefined", "Visr.PyVector.iir_partial", "Visr.PyVector.iir_short_rejected", "Visr.PyVector.iir_default_ignores_sections", "Visr.PyVector.iir_default_differs", "Visr.PyVector.iir_default_undefined", "Visr.PyVector.converted_inputs_partial", "Visr.PyVector.complex_constant_lost", "Visr.PyVector.iir_states_undefined"], "note": "Proved for arguments of one type and fewer than 2^63 elements. False of the code otherwise: mixed types and integer constants are converted and the result stored in a temporary copy; sizes of 2^63 and more pass the check; the strided functions check sizes modulo 2^64 or without the stride; the recursive filter's default stride is zero (negations proved)."},
  {"property": "C85", "status": "partial", "theorems": ["Visr.NdArray.process_partial", "Visr.NdArray.process_rejects", "Visr.NdArray.process_fails", "Visr.NdArray.process_without_input", "Visr.NdArray.odd_stride_wrong", "Visr.NdArray.odd_stride_wrong_samples", "Visr.NdArray.flexible_stream_partial", "Visr.NdArray.flexible_rejects", "Visr.NdArray.matrix_from_array", "Visr.NdArray.matrix_from_array_rejects", "Visr.NdArray.array_of_matrix", "Visr.NdArray.matrix_roundtrip", "Visr.NdArray.get_item", "Visr.NdArray.set_item", "Visr.NdArray.extra_indices_ignored", "Visr.NdArray.vector_set_partial", "Visr.NdArray.vector_set_rejects", "Visr.NdArray.vector_set_odd_stride", "Visr.NdArray.view_follows_partial", "Visr.NdArray.view_writes_partial", "Visr.NdArray.view_dangles"], "note": "False of the code for byte strides that are not multiples of the sample size (odd_stride_wrong, odd_stride_wrong_samples, vector_set_odd_stride), for arrays that refer to a matrix that is resized (view_dangles) and for tuples of more than two indices (extra_indices_ignored). Everything else is proved for all layouts, lengths and sequences."},
  {"property": "C86", "status": "partial", "theorems": ["Visr.Neon.calls_compute", "Visr.Neon.misaligned_reported_partial", "Visr.Neon.garbage_irrelevant", "Visr.Neon.inplace_same", "Visr.Neon.same_as_reference", "Visr.Neon.release_unchecked", "Visr.Neon.selected"], "note": "False of the code as stated: release builds do not check the alignment promise, except in one function; everything else proved (real functions compared with the reference functions, complex ones with the formula)."},
  {"property": "C87", "status": "partial", "theorems": ["Visr.Fir.convolves_partial", "Visr.Fir.accepted_ratio_suffices", "Visr.Fir.large_ratio_refused", "Visr.Fir.load_iff", "Visr.Fir.white_unnormalised", "Visr.Fir.white_undefined", "Visr.Fir.future_sample_heard", "Visr.Fir.negative_ratio_undefined", "Visr.Fir.silent_after_resize"], "note": "Convolution proved for all histories if the last tap is at most 2048 samples back, which setUpsampleRatio checks. False otherwise: the number of coefficients is not checked (a longer filter hears future samples), negative ratios are accepted and read out of bounds, and more than 64 tristate filters write out of bounds; all proved. Negative numbers of filters or coefficients are not modelled."},
  {"property": "C88", "status": "proved", "theorems": ["Visr.Denormals.sets", "Visr.Denormals.sets_default", "Visr.Denormals.restores", "Visr.Denormals.other_platforms", "Visr.Denormals.audio_thread_unaffected"], "note": "The control word as 32-bit vector per thread. That new threads may inherit the control word of their creator depends on the operating system and is not modelled."},
  {"property": "C89", "status": "partial", "theorems": ["Visr.TypeId.hash_standard", "Visr.TypeId.hash_depends_on_platform", "Visr.TypeId.one_character", "Visr.TypeId.common_end", "Visr.TypeId.collisions", "Visr.TypeId.library_ids", "Visr.TypeId.registrar", "Visr.TypeId.registrar_destroyed", "Visr.TypeId.initialised_partial", "Visr.TypeId.identifiers_standard"], "note": "False of the code in part: identifiers of different names can collide, depend on the platform for other than ASCII characters, and the classes of biquad coefficients, their lists and the late reverberation parameter are registered by no library; the theorems say so."},
  {"property": "C90", "status": "partial", "theorems": ["Visr.Crossover.coefficients", "Visr.Crossover.bank_outputs", "Visr.Crossover.no_objects", "Visr.Crossover.gain_unique", "Visr.Crossover.sum_flat", "Visr.Crossover.split", "Visr.Crossover.crossover_frequency_partial", "Visr.Crossover.fixed_sampling_frequency", "Visr.Crossover.stable"], "note": "False of the code in part: the coefficients are those for 48 kHz at every sampling frequency (crossover_frequency_partial is for 48 kHz), and a renderer without objects is refused. Coefficients are exact single precision values; calculations of the filters are over real numbers."},
  {"property": "C91", "status": "partial", "theorems": ["Visr.ParamFlow.implemented", "Visr.ParamFlow.accepted_iff", "Visr.ParamFlow.attached_iff", "Visr.ParamFlow.value_arrives", "Visr.ParamFlow.external", "Visr.ParamFlow.atomic", "Visr.ParamFlow.flow_accepted_iff_partial", "Visr.ParamFlow.flow_attached_partial", "Visr.ParamFlow.all_attached_partial", "Visr.ParamFlow.sender_lost", "Visr.ParamFlow.repeated_connection"], "note": "Proved for connections between real ports without restriction; for whole component trees under the assumption that every port has at most one sender. Without it the property is false: a second sender of a composite port is silently not attached (sender_lost)."},
  {"property": "C92", "status": "partial", "theorems": ["Visr.ArraySetup.accepted_iff", "Visr.ArraySetup.loaded", "Visr.ArraySetup.history", "Visr.ArraySetup.merged", "Visr.ArraySetup.reload_rejected", "Visr.ArraySetup.retry_rejected", "Visr.ArraySetup.malformed_attributes"], "note": "Proved for new objects and all histories, except that a file cannot be loaded again (reload_rejected), a failed call leaves the object changed (retry_rejected), and unreadable attributes are treated like missing ones (malformed_attributes): there the property is false of the code."},
  {"property": "C93", "status": "partial", "theorems": ["Visr.Decorrelation.allpass", "Visr.Decorrelation.phases_partial", "Visr.Decorrelation.odd_refused", "Visr.Decorrelation.default_power", "Visr.Decorrelation.configured_gain", "Visr.Decorrelation.file_filters", "Visr.Decorrelation.same_at_ends", "Visr.Decorrelation.coherent_at_zero", "Visr.Decorrelation.ipp_too_small", "Visr.Decorrelation.ipp_convolution_scaled", "Visr.Decorrelation.library_iff", "Visr.Decorrelation.created_iff"], "note": "All filters have the same real response at 0 Hz and at half the sampling frequency, so there is no decorrelation at these frequencies; the IPP wrapper declares scaling factors that are not those of its transforms. Both negations are proved, the rest holds for all inputs."},
  {"property": "C94", "status": "proved", "theorems": ["Visr.KissFft.factors_complete", "Visr.KissFft.complex_transform", "Visr.KissFft.wrapper_isDft", "Visr.KissFft.forward_range", "Visr.KissFft.round_trip", "Visr.KissFft.convolver_default_fft", "Visr.KissFft.random_phase_filters"], "note": "Over exact complex numbers; rounding of float or double is not modelled."},
  {"property": "C95", "status": "partial", "theorems": ["Visr.Options.precedence", "Visr.Options.repeated_refused", "Visr.Options.no_exception_partial", "Visr.Options.positional_ignored", "Visr.Options.flag_value_ignored", "Visr.Options.file_problems_escape", "Visr.Options.file_values", "Visr.Options.two_blanks_throw", "Visr.Options.size_read", "Visr.Options.negative_wraps", "Visr.Options.diffusion_partial", "Visr.Options.renderer_settings", "Visr.Options.interface_options", "Visr.Options.array_not_positional", "Visr.Options.default_values", "Visr.Options.low_frequency_false", "Visr.Options.large_array", "Visr.Options.negative_period", "Visr.Options.one_dash", "Visr.Options.missing_value_refused", "Visr.Options.unknown_refused"], "note": "Proved for all command lines and files: precedence of command line, file and defaults, values written in the documented file format, numbers, settings of the renderers. False of the code and refuted: positional options have no effect, a value after a flag has no effect, problems in an option file are thrown instead of reported, two blanks make the value empty, negative numbers wrap around, two documented defaults differ, more than 64 loudspeakers read behind the table of diffusion filters. Boost.Program_options and Boost.Tokenizer are modelled from their documentation; abbreviated options and grouped one-letter flags are not modelled."},
  {"property": "C96", "status": "partial", "theorems": ["Visr.PyWrapper.paths_partial", "Visr.PyWrapper.blank_splits", "Visr.PyWrapper.module_loaded", "Visr.PyWrapper.module_path_unused", "Visr.PyWrapper.class_found", "Visr.PyWrapper.ports_mirrored", "Visr.PyWrapper.wrapper_connected", "Visr.PyWrapper.created_iff", "Visr.PyWrapper.refused", "Visr.PyWrapper.name_differs", "Visr.PyWrapper.lookup_leads", "Visr.PyWrapper.missing_class_refused", "Visr.PyWrapper.module_remembered", "Visr.PyWrapper.additional_path_searched"], "note": "False of the code where stated: directories with blanks in their names cannot be given (blank_splits), the module search path of the loading function with two paths is ignored (module_path_unused), and the component is registered under another name (name_differs). The rest is proved for all inputs; paths_partial is restricted to directories without commas and blanks."},
  {"property": "C97", "status": "partial", "theorems": ["Visr.ParamConfig.compare_partial", "Visr.ParamConfig.interpolation_any", "Visr.ParamConfig.created_partial", "Visr.ParamConfig.biquad_config", "Visr.ParamConfig.other_class_partial", "Visr.ParamConfig.routing_any", "Visr.ParamConfig.exception_differs", "Visr.ParamConfig.connection_partial", "Visr.ParamConfig.connection_accepted", "Visr.ParamConfig.interpolation_mismatch", "Visr.ParamConfig.assigned", "Visr.ParamConfig.assignable_partial", "Visr.ParamConfig.size_refused", "Visr.ParamConfig.other_class_refused", "Visr.ParamConfig.panning_assignment"], "note": "False of the code where stated: configurations of interpolation parameters are compatible with everything (interpolation_any, interpolation_mismatch), ports for biquad coefficients have configurations of the wrong class (biquad_config), signal routings accept every configuration (routing_any), other exceptions than documented (exception_differs); panning matrices cannot be assigned (C70). The rest is proved for all classes and sizes."},
  {"property": "C98", "status": "partial", "theorems": ["Visr.Clock.counted_partial", "Visr.Clock.undefined_before_start", "Visr.Clock.same_time", "Visr.Clock.time_of_block_start", "Visr.Clock.failure_keeps_time", "Visr.Clock.trees_independent", "Visr.Clock.monotone_partial", "Visr.Clock.tree_equations", "Visr.Clock.second_flow_resets", "Visr.Clock.two_flows_add", "Visr.Clock.inner_context_unused", "Visr.Clock.samples_wrap"], "note": "Proved for all histories since the last accepted signal flow of the tree and below 2^64 samples. False otherwise: a second signal flow for the same component resets the clock although the documentation says it cannot be reset, two signal flows add up, the clock is indeterminate before the first signal flow, and the number of samples wraps; all proved."},
  {"property": "C99", "status": "partial", "theorems": ["Visr.Application.exit_success", "Visr.Application.plays_until_q", "Visr.Application.exit_codes", "Visr.Application.failures_reported", "Visr.Application.interfaces_listed", "Visr.Application.interface_created", "Visr.Application.interface_settings", "Visr.Application.backend_mandatory", "Visr.Application.flow_outlives_interface", "Visr.Application.all_released", "Visr.Application.end_of_input_ignored", "Visr.Application.unknown_interface_late", "Visr.Application.mode_restored_partial"], "note": "False at the end of the input (end_of_input_ignored) and for the floating-point mode after failures (mode_restored_partial); everything else is proved for all command lines, failures and inputs. The construction of the renderer and the operations of the interfaces are arbitrary outcomes."}
]}
