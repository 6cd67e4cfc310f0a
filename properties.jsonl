{"id": "C01", "title": "Channel ranges enumerate exactly the arithmetic progression before their end", "statement": "A ChannelRange(start,end,step) that the constructor accepts denotes exactly start, start+step, start+2*step, ... up to but excluding end: size() is the number of these values, at(i)/operator[](i) is the i-th of them, at(i) throws std::out_of_range exactly for i>=size(), and the constructor throws std::invalid_argument exactly for step 0 or a step pointing away from end.", "quantifier": "all integer starts, ends (ascending and descending), steps and positions", "why_tests_cant": "The range of start/end/step values is unbounded and the interesting cases (negative steps, end not on the grid) are combinations of all three.", "anchors": ["src/libvisr/channel_list.hpp:ChannelRange", "src/libvisr/channel_list.cpp:ChannelRange"]}
{"id": "C02", "title": "Printed channel lists can be read back", "statement": "Printing a non-empty ChannelList yields a comma separated list of single indices and start[:step]:last runs which, expanded as an index sequence, is the original list, provided no index is repeated three or more times in a row and all indices are below 2^30 (the reader computes in 32-bit int).", "quantifier": "all channel lists", "why_tests_cant": "Run compression interacts across arbitrarily long lists; only finitely many lists can be tried.", "anchors": ["src/libvisr/channel_list.cpp:operator<<", "src/librbbl/index_sequence.cpp:IndexSequence"]}
{"id": "C03", "title": "Message queues are first-in first-out and lose nothing", "statement": "For every interleaving of enqueue on the output port and front/pop/empty/clear on the input port, the messages popped are, in order and exactly once, the messages enqueued (minus those cleared), size() is the number pending, and front/pop on an empty queue throw std::logic_error without changing anything.", "quantifier": "all finite histories of queue operations", "why_tests_cant": "Histories are unbounded; loss or reordering may need a specific long interleaving.", "anchors": ["src/libpml/message_queue_protocol.hpp:MessageQueueProtocol", "src/libpml/message_queue_protocol.cpp"]}
{"id": "C04", "title": "Double buffering publishes only complete values and raises every changed flag", "statement": "A receiver connected through the DoubleBufferingProtocol sees the value that the sender had written at the time of its last swapBuffers(), never a later partial write; every connected receiver's changed() is true from each swap until that receiver's own resetChanged(), independently of the other receivers; before the first swap nobody's flag is raised by the protocol.", "quantifier": "all histories of write, swapBuffers, resetChanged and connect/disconnect, and any number of receivers", "why_tests_cant": "Depends on every interleaving of sender and several receivers.", "anchors": ["src/libpml/double_buffering_protocol.hpp", "src/libpml/double_buffering_protocol.cpp:DoubleBufferingProtocol"]}
{"id": "C05", "title": "Protocol endpoints keep their connection discipline", "statement": "A message queue never has more than one sender and one receiver attached, double buffering and shared data never more than one sender, connecting a second one (or a port of another protocol) throws std::invalid_argument and leaves the attached ports unchanged, and disconnecting returns true exactly when that port was attached and afterwards it is not.", "quantifier": "all histories of connect and disconnect calls on all three protocols", "why_tests_cant": "Connection histories are unbounded.", "anchors": ["src/libpml/message_queue_protocol.cpp:connectInput", "src/libpml/double_buffering_protocol.cpp:connectInput", "src/libpml/shared_data_protocol.cpp:connectInput"]}
{"id": "C06", "title": "The circular buffer returns the past exactly", "statement": "After any sequence of block writes of at most the buffer length, reading n contiguous samples with delay d (n<=d<=length) returns, on every channel, exactly the samples written d, d-1, ..., d-n+1 sample periods ago (zero before the first write), all reads staying inside the allocated row.", "quantifier": "all buffer lengths, alignments, write-size sequences, delays and read sizes", "why_tests_cant": "Wrap-around and mirror-copy behaviour depends on the whole history of block sizes.", "anchors": ["src/librbbl/circular_buffer.hpp:CircularBuffer", "src/librbbl/circular_buffer.cpp:advanceWriteIndex"]}
{"id": "C07", "title": "The flexible buffer wrapper is the wrapped flow delayed by exactly one period", "statement": "Calling FlexibleBufferWrapper::process with any sequence of buffer sizes produces, in total, the stream obtained by cutting the input into period-sized blocks, running the flow on each complete block, and prefixing one period of zeros; every call returns exactly as many samples as it was given and the latency never varies.", "quantifier": "all sequences of call sizes (including 0 and larger than the period), all flows and inputs", "why_tests_cant": "The result must not depend on the chunking; the set of chunkings is infinite.", "anchors": ["src/librrl/flexible_buffer_wrapper.cpp:FlexibleBufferWrapper::process"]}
{"id": "C08", "title": "Object channel allocation is injective and stable", "statement": "After any sequence of setObjects calls with duplicate-free object ids, getObjectForChannel assigns every present object to exactly one channel below maxChannels() and reports no other object, an object present before and after a call keeps its channel, departed objects are unmapped, and a call throws only if the ids outnumber the channels.", "quantifier": "all histories of object sets", "why_tests_cant": "Free-list handling depends on the whole history of arrivals and departures.", "anchors": ["src/librbbl/object_channel_allocator.cpp:ObjectChannelAllocator::setObjects"]}
{"id": "C09", "title": "Signal routing parameters are partial functions from outputs to inputs", "statement": "Under every history of addRouting/removeEntry/clear, a SignalRoutingParameter holds at most one input per output: getInput(out) is the input of the last addRouting for out not removed since, and the invalid index otherwise; removal reports true exactly when an entry was removed; getOutput returns the lowest output routed from that input.", "quantifier": "all histories of routing operations", "why_tests_cant": "Map semantics must hold for every history.", "anchors": ["src/libpml/signal_routing_parameter.cpp", "src/libpml/signal_routing_parameter.hpp"]}
{"id": "C10", "title": "Signal routing mixes exactly the routed inputs", "statement": "Every block, each output of rcl::SignalRouting is the sample-wise sum of precisely the inputs routed to it (zero if none), whatever routing changes came before; an update with an out-of-range index leaves the previous routing in force when it comes through the control port.", "quantifier": "all routings, inputs and update histories", "why_tests_cant": "Needs all combinations of routing tables and updates.", "anchors": ["src/librcl/signal_routing.cpp:SignalRouting::process"]}
{"id": "C11", "title": "Gain vector transitions reach the target and stay there", "statement": "After setGain on rcl::GainVector the applied gain moves linearly, sample by sample, from the previously targeted gain to the new one, reaches it exactly after the configured number of interpolation periods, and stays there until the next change.", "quantifier": "all gains, interpolation lengths, block sizes and numbers of blocks", "why_tests_cant": "Ramp bookkeeping must be right for every length and every number of blocks.", "anchors": ["src/librcl/gain_vector.cpp", "src/librbbl/gain_fader.cpp"]}
{"id": "C12", "title": "Gain changes never produce a step in the gain curve", "statement": "Whenever new gains are set, also in the middle of a running transition, the gain curve of rbbl::GainMatrix (respectively rcl::DelayVector, rcl::GainVector) continues from the gain reached so far.", "quantifier": "all histories of gain changes and processed blocks", "why_tests_cant": "A discontinuity may need a change at one particular point of a running transition.", "anchors": ["src/librbbl/gain_matrix.cpp:setGainsInternal", "src/librcl/delay_vector.cpp:setGain", "src/librcl/delay_vector.cpp:setDelay", "src/librcl/gain_vector.cpp:setGain"]}
{"id": "C13", "title": "Gain matrices compute the matrix-vector product", "statement": "With settled gains each output sample of rbbl::GainMatrix is the gain-weighted sum of the input samples at the same time, for every matrix size.", "quantifier": "all sizes, gains and inputs", "why_tests_cant": "Sizes and values unbounded.", "anchors": ["src/librbbl/gain_matrix.cpp:GainMatrix::process"]}
{"id": "C14", "title": "Block convolution equals linear convolution", "statement": "For every block length, filter length and input, the output stream of CoreConvolverUniform / MultichannelConvolverUniform is the routed, gain-weighted sum of the linear convolutions of the input streams with the assigned impulse responses, zero-padded, without block artefacts.", "quantifier": "all block lengths, filter lengths, routings, impulse responses and input streams of any duration", "why_tests_cant": "Partition and delay-line indexing depends on the number of processed blocks modulo the number of partitions, for all sizes.", "anchors": ["src/librbbl/core_convolver_uniform.cpp", "src/librbbl/multichannel_convolver_uniform.cpp"]}
{"id": "C15", "title": "Filter crossfades are a partition of unity", "statement": "While CrossfadingConvolverUniform moves to a new impulse response, its output is (1-r(t)) times the old filter's output plus r(t) times the new one's, with r rising linearly from the first to the last transition sample, and exactly the new filter's output afterwards.", "quantifier": "all transition lengths, block lengths, filters and inputs", "why_tests_cant": "All lengths and all times must agree.", "anchors": ["src/librbbl/crossfading_convolver_uniform.cpp"]}
{"id": "C16", "title": "Delay lines deliver the sample from the requested time", "statement": "MultichannelDelayLine with integer delay d (nearest-sample method) outputs the input sample from d periods ago scaled by the gain, for each channel independently, for every delay within the advertised maximum.", "quantifier": "all delays up to the configured maximum, block lengths, histories", "why_tests_cant": "Bounds interact with ring length, block length and method delay for all sizes.", "anchors": ["src/librbbl/multichannel_delay_line.cpp", "src/librbbl/lagrange_interpolator.cpp"]}
{"id": "C17", "title": "Lagrange coefficients interpolate polynomials exactly", "statement": "For every order N the coefficients computed by LagrangeCoefficientCalculator for a fractional position mu are the Lagrange basis polynomials evaluated at mu: they sum to 1, select a sample exactly at integer positions, and reproduce every polynomial of degree at most N.", "quantifier": "all orders and all fractional positions", "why_tests_cant": "Polynomials and positions form infinite families; the in-place product tree depends on the order's binary shape.", "anchors": ["src/libefl/lagrange_coefficient_calculator.hpp", "src/libefl/lagrange_coefficient_calculator.cpp"]}
{"id": "C18", "title": "Aligned sizes and aligned storage", "statement": "nextAlignedSize(n,a) is the smallest multiple of a not below n (n itself for a=0); AlignedArray hands out a pointer aligned to the requested number of elements with room for all elements inside the memory it allocated; non power-of-two alignments are rejected.", "quantifier": "all sizes, alignments and addresses returned by the allocator", "why_tests_cant": "The allocator's address is arbitrary.", "anchors": ["src/libefl/alignment.hpp", "src/libefl/aligned_array.hpp"]}
{"id": "C19", "title": "Matrix rows never overlap", "statement": "In a BasicMatrix every element (row,col) is stored at its own address; writing one element, row or column changes no other element, and at() throws exactly for indices outside the dimensions.", "quantifier": "all dimensions, alignments and index pairs", "why_tests_cant": "Unbounded dimensions.", "anchors": ["src/libefl/basic_matrix.hpp"]}
{"id": "C20", "title": "Vector ramps", "statement": "vectorRamp fills n>=2 values on the straight line from start to end with the inclusive/exclusive end conventions stated in its documentation, and for one value yields the documented value.", "quantifier": "all lengths, values and inclusion flags", "why_tests_cant": "All lengths.", "anchors": ["src/libefl/reference/vector_functions_impl.hpp:vectorRamp"]}
{"id": "C21", "title": "Biquad filters implement the difference equation across block boundaries", "statement": "BiquadIirFilter's output satisfies y[n]=b0 x[n]+b1 x[n-1]+b2 x[n-2]-a1 y[n-1]-a2 y[n-2] for each section of the cascade, over the entire stream, independent of the block length.", "quantifier": "all coefficients, numbers of sections, streams and block partitions", "why_tests_cant": "State carried across blocks must be right for every partition of the stream.", "anchors": ["src/libefl/reference/filter_functions_impl.hpp", "src/librcl/biquad_iir_filter.cpp"]}
{"id": "C22", "title": "The schedule runs every component once, senders first", "statement": "If AudioSignalFlow accepts a flow, its schedule contains each atomic component exactly once, and every component appears after all components from which it receives audio or parameters; cyclic flows are rejected with an exception.", "quantifier": "all signal flow graphs", "why_tests_cant": "Graphs are unbounded.", "anchors": ["src/librrl/scheduling_graph.cpp:SchedulingGraph"]}
{"id": "C23", "title": "Audio connections through composite ports resolve to the real sender", "statement": "After placeholder resolution each connection goes from an atomic (or top-level) send channel to an atomic (or top-level) receive channel, namely the unique source reached by following the chain of composite ports. Resolution is refused exactly if some real receiver sits behind a closed loop of composite ports or an unconnected composite port; loops of composite ports that feed no real receiver are ignored.", "quantifier": "all nestings and chains of placeholder ports", "why_tests_cant": "Chains may be arbitrarily long.", "anchors": ["src/librrl/audio_connection_map.cpp:resolvePlaceholders"]}
{"id": "C24", "title": "Parameter connections through composite ports resolve to the real sender", "statement": "After resolution each parameter connection goes from a real sender at the end of the chain of composite ports to the real receiver; no connection of a sender through composite ports is lost; acyclic chains of any length are never mistaken for loops.", "quantifier": "all chains of placeholder parameter ports", "why_tests_cant": "Chains may be arbitrarily long.", "anchors": ["src/librrl/parameter_connection_map.cpp:resolvePlaceholders"]}
{"id": "C25", "title": "The connection check accepts exactly the well-connected flows", "statement": "checkConnectionIntegrity returns true exactly when, at every level of the hierarchy, every receive channel has exactly one connection, every send channel at least one, and all parameter ports are connected to compatible ports; sample types of connected audio ports agree.", "quantifier": "all flows", "why_tests_cant": "Flows are unbounded.", "anchors": ["src/librrl/integrity_checking.cpp"]}
{"id": "C26", "title": "Audio buffers are laid out without overlap and receivers see their senders", "statement": "When a flow in which connected ports have equal sample types is initialised, every send channel gets its own aligned buffer in the signal pool, and every receive channel of a component or of the flow's outputs is backed, directly or through an inserted copy, by exactly the buffer of the channel connected to it. Initialisation is rejected with an exception only if signals of a sample type that cannot be copied would need a copy. (A top-level flow that is a single component must use one sample type.)", "quantifier": "all flows, port widths, sample types, periods, port orders and connection patterns", "why_tests_cant": "Layouts depend on the whole connection pattern.", "anchors": ["src/librrl/audio_signal_flow.cpp:initialiseAudioConnections", "src/librrl/signal_routing_internal.cpp"]}
{"id": "C27", "title": "One process() call computes the flow's function, independent of the chosen schedule", "statement": "Running the components in any order compatible with the connections gives every output the value defined by the signal flow equations for this block (each component's function applied to its current inputs); in particular no component reads stale data.", "quantifier": "all acyclic flows, all admissible schedules, all component functions", "why_tests_cant": "The number of admissible schedules is exponential.", "anchors": ["src/librrl/audio_signal_flow.cpp:executeComponents", "src/librrl/scheduling_graph.cpp"]}
{"id": "C28", "title": "Flow-level port channel numbering is a bijection", "statement": "The capture (playback) channel indices handed to process() map one-to-one onto the (port, channel) pairs of the flow's audio ports, ports in order and contiguous, and out-of-range queries throw.", "quantifier": "all lists of port widths", "why_tests_cant": "All width lists.", "anchors": ["src/librrl/audio_signal_flow.cpp"]}
{"id": "C29", "title": "Block time equals the number of successful process calls", "statement": "After initialisation, time().blockCount() is the number of process() calls that completed and sampleCount() is that number times the period; a call in which a component throws does not advance time.", "quantifier": "all histories of successful and failing process calls", "why_tests_cant": "Histories are unbounded.", "anchors": ["src/librrl/audio_signal_flow.cpp:process", "src/libvisr/impl/time_implementation.cpp"]}
{"id": "C30", "title": "Component and port names stay unique and resolvable", "statement": "Under every sequence of component and port creations and destructions, names within one parent are unique; a duplicate name throws and registers nothing; lookup by name returns the registered child (the empty name and \"this\" denote the composite itself); destroying a component removes exactly it and makes its children top-level; and fullName joins the names below the top level with colons, so that distinct components below the top level of one flow have distinct full names when names contain no colon.", "quantifier": "all component trees", "why_tests_cant": "Trees are unbounded.", "anchors": ["src/libvisr/impl/composite_component_implementation.cpp", "src/libvisr/impl/component_implementation.cpp"]}
{"id": "C31", "title": "Protocol registry keeps types and names in one-to-one correspondence", "statement": "Under every history of registrations and unregistrations in CommunicationProtocolFactory, typeFromName and typeToName are mutually inverse on the registered protocols, duplicates throw and change nothing.", "quantifier": "all histories of registrations", "why_tests_cant": "Histories are unbounded.", "anchors": ["src/libvisr/communication_protocol_factory.cpp"]}
{"id": "C32", "title": "Profiler statistics are the true mean and sample variance", "statement": "After n finished iterations since the last reset, getStatistics returns the arithmetic mean and (for n>=2) the sample variance of the recorded timings of every component, and n.", "quantifier": "all measurement sequences and reset points", "why_tests_cant": "The recurrence must be right for all n.", "anchors": ["src/librrl/runtime_profiler.cpp:finishIteration"]}
{"id": "C33", "title": "Object vectors are maps keyed by object id and message updates are atomic per object", "statement": "ObjectVector behaves as a map from object ids to objects under all insert/remove/assign/swap histories; applying a metadata message updates exactly the objects listed, a failing object entry leaves that object unchanged, and fillObjectVector leaves the vector unchanged if any entry fails.", "quantifier": "all histories and messages", "why_tests_cant": "Histories and messages are unbounded.", "anchors": ["src/libobjectmodel/object_vector.cpp", "src/libobjectmodel/object_vector_parser.cpp"]}
{"id": "C34", "title": "Datagrams are delivered exactly once in order under all interleavings", "statement": "However the network handler and the audio thread interleave, UdpReceiver forwards every received datagram exactly once and in order of arrival to its output queue.", "quantifier": "all interleavings of receive-handler and process critical sections", "why_tests_cant": "Thread schedules cannot be enumerated by tests.", "anchors": ["src/librcl/udp_receiver.cpp"]}
{"id": "C35", "title": "Bad control messages do not block later ones", "statement": "FIR filter matrices consume every pending filter message in process(), also if some of them are invalid.", "quantifier": "all message sequences", "why_tests_cant": "Requires arbitrary mixtures of valid and invalid messages.", "anchors": ["src/librcl/fir_filter_matrix.cpp:process", "src/librcl/crossfading_fir_filter_matrix.cpp:process"]}
{"id": "C36", "title": "Listener compensation aligns all loudspeakers", "statement": "For every array and listener position (not coinciding with all loudspeakers) the gains lie in [0,1], are proportional to the distances with the farthest loudspeaker at 1, delays are non-negative, and delay plus propagation time is the same for all loudspeakers.", "quantifier": "all loudspeaker arrays and listener positions", "why_tests_cant": "Real-valued geometry.", "anchors": ["src/librcl/listener_compensation.cpp"]}
{"id": "C37", "title": "VBAP gains point at the source with unit power", "statement": "For a source direction inside a non-degenerate triplet, the unnormalised VBAP gains are non-negative, non-zero only on that triplet, and the gain-weighted loudspeaker directions sum to the source vector; normalised gains have unit power.", "quantifier": "all loudspeaker layouts, listener and source positions", "why_tests_cant": "Real-valued geometry.", "anchors": ["src/libpanning/VBAP.cpp"]}
{"id": "C38", "title": "Time-frequency analysis and overlap-add synthesis", "statement": "TimeFrequencyTransform applies the window to exactly the last windowLength samples at every hop, and TimeFrequencyInverseTransform overlap-adds the inverse transforms of all frames, so that analysis followed by synthesis with a window satisfying the overlap-add condition reproduces the delayed input.", "quantifier": "all window lengths, hop sizes, DFT sizes and inputs", "why_tests_cant": "All combinations of hop, window and period.", "anchors": ["src/librcl/time_frequency_transform.cpp", "src/librcl/time_frequency_inverse_transform.cpp"]}
{"id": "C39", "title": "Time-frequency parameter cells do not alias", "statement": "at(frame,channel,bin) of TimeFrequencyParameter addresses pairwise distinct cells for in-range index triples, and slices agree with it.", "quantifier": "all dimensions", "why_tests_cant": "Unbounded dimensions.", "anchors": ["src/libpml/time_frequency_parameter.hpp"]}
{"id": "C40", "title": "Routing lists are keyed maps", "statement": "FilterRoutingList and SparseGainRoutingList hold at most one entry per key ((input,output), respectively entry index) under every history of additions, removals and JSON messages; adding replaces the entry for the same key, removing removes exactly the addressed entry, a JSON message whose sequences are scalars or have the same length is expanded element by element, and a rejected message changes nothing.", "quantifier": "all histories", "why_tests_cant": "Histories are unbounded.", "anchors": ["src/librbbl/filter_routing.cpp", "src/librbbl/sparse_gain_routing.cpp"]}
{"id": "C41", "title": "Channel objects are routed to the loudspeaker with the requested id", "statement": "ChannelObjectRoutingCalculator routes every channel of every channel object whose signal index is below the number of object channels and whose single output id names a regular loudspeaker to that loudspeaker, and creates no other routing.", "quantifier": "all object vectors and arrays", "why_tests_cant": "Unbounded object vectors.", "anchors": ["src/librcl/channel_object_routing_calculator.cpp"]}
{"id": "C42", "title": "Interpolation parameters keep indices and weights in step", "statement": "An InterpolationParameter accepted by its constructors always has equally many indices and weights, and mismatched inputs throw.", "quantifier": "all constructor and setter histories", "why_tests_cant": "Unbounded sizes.", "anchors": ["src/librbbl/interpolation_parameter.cpp"]}
{"id": "C43", "title": "Rotations preserve lengths and compose", "statement": "Rotating a position by a unit quaternion preserves its length, rotating by q1 then q2 equals rotating by q2*q1, and rotating by the conjugate undoes the rotation.", "quantifier": "all positions and unit quaternions", "why_tests_cant": "Real-valued parameters.", "anchors": ["src/librbbl/quaternion.cpp", "src/librbbl/position_3d.cpp", "src/libpml/listener_position.cpp"]}
{"id": "C44", "title": "Routing strings are read completely or not at all", "statement": "SignalRoutingParameter::parse returns true exactly for texts consisting of one or more comma-separated pairs in=out of decimal numbers below 2^32 with optional white space between numbers and signs, and then the parameter holds exactly the pairs of the text (a later pair replacing an earlier one with the same output); for every other text it returns false and the parameter is unchanged.", "quantifier": "all character strings and all previous contents of the parameter", "why_tests_cant": "The set of strings is infinite and includes every kind of malformed or truncated text.", "anchors": ["src/libpml/signal_routing_parameter.cpp:SignalRoutingParameter::parse"]}
{"id": "C45", "title": "Index sequences expand to the progressions they denote", "statement": "Constructing an IndexSequence from a comma-separated text of single indices a, ranges a:b and stepped ranges a:s:b yields the concatenation of the denoted arithmetic progressions: a, a+s, a+2s, ... as long as the end b has not been passed (ascending or descending, end included when it is reached; no index if the step points away from the end). A zero step is rejected with an exception.", "quantifier": "all texts of that form with indices below 2^30", "why_tests_cant": "Unbounded set of texts; end-point and direction cases combine.", "anchors": ["src/librbbl/index_sequence.cpp:IndexSequence::IndexSequence"]}
{"id": "C46", "title": "Fractional delays interpolate the signal polynomially", "statement": "MultichannelDelayLine with a Lagrange interpolation of order N outputs, for every sample, the value at the requested (ramped) fractional delay of the polynomial of degree N through the N+1 neighbouring input samples, times the ramped gain. Requested delays below the interpolator's own delay are handled as the selected method-delay policy says, and delays beyond the maximum are rejected.", "quantifier": "All orders, all policies, all sample sequences and write histories, all start/end delays within the allowed range, all gains, all channels and block lengths.", "why_tests_cant": "Delay values are real numbers and buffer positions depend on the whole write history; tests can only sample a few delays.", "anchors": ["src/librbbl/multichannel_delay_line.cpp: interpolate", "src/librbbl/lagrange_interpolator.hpp", "src/librbbl/fractional_delay_factory.cpp"]}
{"id": "C47", "title": "DelayVector applies its gain and delay transitions to the input signal", "statement": "The DelayVector component outputs, for every channel and block, the input signal delayed by the current delay and scaled by the current gain, where both parameters move linearly over the configured number of interpolation steps from the previous to the newly received value.", "quantifier": "All configurations, all sequences of process() calls with gain and delay updates arriving after the previous transition is complete, all input signals.", "why_tests_cant": "The output at any time depends on the complete history of inputs and parameter updates.", "anchors": ["src/librcl/delay_vector.cpp: setup, process, setDelay, setGain, vectorCombinationInplace"]}
{"id": "C48", "title": "Connection requests are accepted exactly when they make sense inside their composite", "statement": "A connection request given by ports is accepted exactly if both ports belong to the composite or to one of its direct children, the index lists have equal length and every index is a channel of its port (for whole ports: equal widths); an accepted request adds exactly this connection, a rejected one throws invalid_argument and changes nothing. A request given by names connects exactly the ports denoted by the names.", "quantifier": "all component trees and all connection requests", "why_tests_cant": "The set of trees, ports and index lists is unbounded.", "anchors": ["src/libvisr/impl/composite_component_implementation.cpp: audioConnection, registerParameterConnection, checkPortParent, findPort"]}
{"id": "C49", "title": "Listener position messages round-trip and are atomic", "statement": "Writing a listener position as JSON and reading the message restores it: exactly with the quaternion format; with the rotation vector format for every unit orientation whose vector part is zero or longer than the machine epsilon; with the yaw/pitch/roll format up to the sign of the quaternion (the same rotation) away from the poles. A message giving the orientation in more than one form is refused with invalid_argument, and a message whose reading throws leaves the position unchanged.", "quantifier": "all listener positions, all message trees, all previous contents", "why_tests_cant": "Real-valued coordinates and angles; every malformed message.", "anchors": ["src/libpml/listener_position.cpp parseJson, writeJson", "src/librbbl/quaternion.cpp"]}
{"id": "C50", "title": "Receivers see the scene to which all messages have been applied", "statement": "After every process() of SceneDecoder no message is pending, and the receivers of the object vector see exactly the scene that results from applying all accepted messages received so far, in order of arrival.", "quantifier": "all histories of scene messages over all periods, valid and corrupted", "why_tests_cant": "Needs all distributions of messages over periods; the effect depends on the parity of the number of messages per period.", "anchors": ["src/librcl/scene_decoder.cpp:process", "src/libpml/double_buffering_protocol.hpp"]}
{"id": "C51", "title": "The position decoder outputs the newest position of the smallest face", "statement": "If a period contains valid listener position messages, PositionDecoder outputs the newest message of the smallest face number, moved into the reference coordinate system; without valid messages the output is unchanged.", "quantifier": "all sequences of position messages with all face numbers, time stamps and corruptions", "why_tests_cant": "The selection depends on all orders of faces and time stamps.", "anchors": ["src/librcl/position_decoder.cpp:process"]}
{"id": "C52", "title": "Scenes survive being sent", "statement": "The message written for an object vector describes exactly these objects: a receiver that fills its vector from the message holds an equal vector, and a receiver that updates its vector holds the sent objects under their ids and keeps its own objects under all other ids.", "quantifier": "every object vector (any number of objects, any type, channels, positions, equalisers, labels and reverberation) and every previous content of the receiver", "why_tests_cant": "The message text has unbounded size and nesting, and every type has its own writer and reader; tests compare a few objects.", "anchors": ["src/libobjectmodel/object_vector_parser.cpp: encodeObjectVector, fillObjectVector, updateObjectVector", "src/libobjectmodel/object_parser.cpp: write", "src/libobjectmodel/point_source_extent_parser.cpp: write", "src/libobjectmodel/channel_object_parser.cpp: write, parseOutputChannels", "src/libobjectmodel/point_source_with_reverb_parser.cpp: write"]}
{"id": "C53", "title": "Equaliser settings yield the filters they name", "statement": "The filter calculated for an equaliser setting (low pass, high pass, band pass, band stop, all pass, peak, low shelf, high shelf) is stable and its steady-state response to every sinusoid is that of the named analogue prototype at the prewarped frequency; a list of settings yields the product of the responses, unused sections are flat, and a list longer than the number of sections is refused.", "quantifier": "every filter type, every frequency strictly between zero and half the sampling frequency, every positive quality, every gain in dB, every list of settings and every input sinusoid", "why_tests_cant": "Responses range over a continuum of frequencies, qualities and gains; tests compare a few coefficient sets with stored numbers.", "anchors": ["src/librbbl/parametric_iir_coefficient_calculator.cpp: calculateIirCoefficients", "src/libefl/db_linear_conversion.hpp: dB2linear"]}
{"id": "C54", "title": "Levels and equalisers of objects reach their channels", "statement": "After every scene that was processed, the gain of each channel is the level of the object using it and zero if there is none, the equaliser of each channel is that of the object using it and flat if there is none; a scene that does not fit the configuration is reported and changes nothing.", "quantifier": "every history of scenes and processing calls, every number of channels and sections", "why_tests_cant": "The outputs are double buffered and only rewritten in part, so the result depends on the whole history of scenes.", "anchors": ["src/librcl/object_gain_eq_calculator.cpp: process", "src/libpml/double_buffering_protocol.cpp: swapBuffers", "src/librbbl/parametric_iir_coefficient_calculator.cpp: calculateIirCoefficients"]}
{"id": "C55", "title": "Delay matrices sum delayed and scaled inputs", "statement": "Each output of a delay matrix is the sum over all inputs of the input delayed and scaled by the element of the delay and gain matrix, for every interpolation method and policy; after a change both matrices move linearly, over the configured number of steps, from the values reached to the new ones; matrices of the wrong size are refused without effect.", "quantifier": "all configurations, all histories of process() calls with new delays and gains, all input signals", "why_tests_cant": "The output at any time depends on the complete history of inputs and parameter updates.", "anchors": ["src/librcl/delay_matrix.cpp: setup, process, setDelay, setGain"]}
{"id": "C56", "title": "Sparse gain matrices apply exactly their routings", "statement": "Each output of a sparse gain matrix is the sum, over the routings that end there, of the input times the gain of the routing entry; after new gains or a new routing list the gains move linearly from the gains reached (zero for new routings) to the new ones; a routing list that does not fit is refused without effect. An adder outputs the sum of its inputs, a null source zeros.", "quantifier": "all dimensions, all histories of routing lists, gain vectors and blocks, all signals", "why_tests_cant": "Two gain vectors are swapped at every change, so the start of each transition depends on the history.", "anchors": ["src/librcl/sparse_gain_matrix.cpp: process, setRoutings", "src/librcl/add.cpp: process", "src/librcl/null_source.cpp: process"]}
{"id": "C57", "title": "Panning gains reproduce the scene", "statement": "After a call of PanningCalculator::process() with a new scene, every channel has in the low- and high-frequency gain matrices the loudspeaker gains of the last source that uses it (labelled loudspeakers, or the panning gains of its direction as seen from the current listener position), scaled to the configured norm times one minus its diffuseness; the diffuse matrix has its diffuse part; channels without source are zero; a moved listener changes the gains. DiffusionGainCalculator gives every channel the diffuseness of its source.", "quantifier": "all loudspeaker arrays, configurations, histories of scenes and listener positions, and all scenes", "why_tests_cant": "The gains depend on the geometry, the order of the objects and the history of updates.", "anchors": ["src/librcl/panning_calculator.cpp: process, normalise, constructor", "src/librcl/diffusion_gain_calculator.cpp: process"]}
{"id": "C58", "title": "Compensated amplitude panning keeps the interaural cue of a source for a moving listener", "statement": "With three or more loudspeakers, CAP yields gains whose weighted loudspeaker directions agree with the source direction along the listener's interaural axis; among all such gains of the same total they have minimal energy; the total compensates the distance between source and listener, reduced if necessary so that no gain exceeds the limit. With two loudspeakers the cue is kept for every source, and the gains stay within the limit. High-frequency gains reproduce the source vector inside the loudspeaker triangles. CAPGainCalculator puts the gains of each object, for the last listener position and orientation, into the column of its channel.", "quantifier": "all loudspeaker positions, listener positions and orientations, source positions, scenes and histories", "why_tests_cant": "Minimality is over all gain vectors, and the gains depend on real-valued geometry and on the history of scene and listener updates.", "anchors": ["src/libpanning/CAP.cpp: calcGains, setListenerOrientation", "src/libpanning/CAP_VBAP.cpp: calcInvMatrices, calcPlainGains, applyRerouting", "src/librcl/cap_gain_calculator.cpp: constructor, process"]}
{"id": "C59", "title": "The loudspeaker renderer is completely wired and plays every signal on its output channel", "statement": "Constructing the core renderer for a loudspeaker array succeeds exactly if there are enough decorrelation filters, the output equalisation (if any) has one filter per loudspeaker and subwoofer, and every loudspeaker and subwoofer has an output channel of its own between one and the number of outputs; everything else is rejected with an exception. A constructed renderer passes the connection check of the runtime engine. Whatever the processing components do, the running renderer delivers the signal of each loudspeaker and subwoofer (panned, low and high band if panning is frequency-dependent, plus decorrelated diffuse part plus reverberation, subwoofer mix, output equalisation, gain and delay adjustment) to its output channel, and all other outputs are silent.", "quantifier": "All numbers of inputs, outputs, loudspeakers and subwoofers, all channel assignments, all combinations of output equalisation, reverberation, frequency-dependent panning and listener tracking, all behaviours of the contained components and all input signals.", "why_tests_cant": "Tests construct the renderer for a handful of arrays; the wiring differs between the combinations of options, and a wrong or missing channel only shows for particular assignments.", "anchors": ["src/libsignalflows/core_renderer.cpp: CoreRenderer::CoreRenderer, oneToOneRouting", "src/libvisr/impl/composite_component_implementation.cpp: audioConnection", "src/librcl/hoa_allrad_gain_calculator.cpp: HoaAllRadGainCalculator::HoaAllRadGainCalculator", "src/libpanning/LoudspeakerArray.h: channelIndex, getSubwooferChannels"]}
{"id": "C60", "title": "HOA sources are decoded through a virtual regular loudspeaker array", "statement": "After HoaAllRadGainCalculator::process(), the gains of every signal of a HOA source are those obtained by decoding the signal to the regular loudspeaker array with the given decoder matrix and playing every regular loudspeaker as a VBAP point source on the real array, for the listener position received last; all channels that carry no HOA signal keep the gains of the input matrix, and no error is reported. The calculator accepts exactly decoder matrices of a complete HOA order with one column per regular loudspeaker.", "quantifier": "All loudspeaker arrays, decoder matrices, HOA orders, alignments, scenes whose HOA sources use distinct channels, all histories of scenes, listener positions, input gains and processing calls.", "why_tests_cant": "Tests use one built-in decoder and scene; the result depends on every pair of harmonic and loudspeaker, on the memory layout of three matrices and on the history of listener positions.", "anchors": ["src/libpanning/AllRAD.cpp: AllRAD::AllRAD, AllRAD::setListenerPosition, AllRAD::updateDecodingCoefficients", "src/librcl/hoa_allrad_gain_calculator.cpp: HoaAllRadGainCalculator::HoaAllRadGainCalculator, HoaAllRadGainCalculator::process"]}
{"id": "C61", "title": "The matrix product respects any memory layout", "statement": "efl::product writes to every element of the result the sum of the products of the corresponding row of the first and column of the second operand, for any row and column strides, and changes no other memory of the result.", "quantifier": "All dimensions (also zero), all strides for which the elements of the result have different addresses, all operands.", "why_tests_cant": "Tests check one layout of small matrices; swapped strides go unnoticed for square or densely stored matrices.", "anchors": ["src/libefl/matrix_functions.cpp: product"]}
{"id": "C62", "title": "A scene of reverb objects is rendered completely or not at all", "statement": "Each call of ReverbParameterCalculator::process() either accepts the object vector, and then the parameters seen by the renderer are those of exactly this scene (every reverb object on a rendering channel of its own that reads the object's signal; its reflections with their gains, delays, filters and the panning gains of their positions; all other reflection slots and channels silent), or it fails and the rendering is unchanged. It is accepted exactly if there are not more reverb objects than rendering channels, no object has more reflections than the renderer, and all reflections can be panned. An object that stays in the scene keeps its rendering channel.", "quantifier": "All loudspeaker arrays, numbers of objects and reflections, alignments, all histories of scenes (accepted or rejected) with distinct valid object ids, and all next scenes.", "why_tests_cant": "The parameters are written into two alternating buffers that still hold older scenes, at computed offsets, so that stale values depend on the whole history of scenes.", "anchors": ["src/libreverbobject/reverb_parameter_calculator.cpp: ReverbParameterCalculator::setup, process, processSingleObject, clearSingleObject"]}
{"id": "C63", "title": "The late reverberation messages always describe the current scene", "statement": "After every successful call of ReverbParameterCalculator::process(), the last late reverberation message of every rendering channel agrees up to the comparison tolerance with the late reverb parameters of the channel's object (silence for a channel without object). A call sends at most one message per channel, with exactly the object's parameters, and only if they differ by more than the tolerance from the last message of the channel; in particular an unchanged scene sends nothing.", "quantifier": "All configurations, all histories of scenes with distinct valid object ids, and all next scenes with non-negative onset delays; tolerance between 0 and 1.", "why_tests_cant": "Whether a message is sent depends on what was sent before on this channel, for other objects, and in calls that failed half-way; the comparison is not transitive, so slow drifts could accumulate.", "anchors": ["src/libreverbobject/reverb_parameter_calculator.cpp: equal, maxDiff, processSingleObject, clearSingleObject, process"]}
{"id": "C64", "title": "Late reverberation messages are turned into the right filters, in order", "statement": "Each call of LateReverbFilterCalculator::process() takes the configured number of messages from the front of its input queue (all if there are fewer; as many as there are objects if the number is 0) and sends for each, in order and with the same channel, one filter of the configured length. The filter is the sum over nine octave bands of the band-filtered noise of that object, shaped by silence until the onset, a linear attack up to the level and an exponential decay. Zero levels give a zero filter, there is no sound before the onset, and decaying parameters never exceed the levels.", "quantifier": "All numbers of objects, filter durations, sampling frequencies, noise realisations and queues of messages for existing channels whose onset and attack times are not negative and fit into the filter.", "why_tests_cant": "The noise is random and the parameters are continuous; the filter is assembled in place from nine bands and envelopes with computed boundaries.", "anchors": ["src/libreverbobject/late_reverb_filter_calculator.cpp: LateReverbFilterCalculator, process, calculateImpulseResponse, createEnvelope, filterSequence"]}
{"id": "C65", "title": "Late reverberation filters follow the scene", "statement": "In the chain of ReverbParameterCalculator and LateReverbFilterCalculator, the filters sent last for all rendering channels are those of the objects of the current scene (up to the comparison tolerance; silence for free channels): after every period, if all objects may be updated per period and no scene is rejected; and after any history, also with rejected scenes, once an accepted scene has stayed for so many periods that the updates cover the queued messages and one per channel.", "quantifier": "All configurations, all histories of scenes with distinct valid ids whose late parameters fit into the filter, all noise realisations, all numbers of updates per period.", "why_tests_cant": "The filters depend on queues whose contents depend on the whole history of changes, on the number of updates per period and on rejected scenes.", "anchors": ["src/libreverbobject/reverb_object_renderer.cpp: ReverbObjectRenderer (lateReverbFilterUpdatesPerPeriod)", "src/libreverbobject/reverb_parameter_calculator.cpp: process", "src/libreverbobject/late_reverb_filter_calculator.cpp: process"]}
{"id": "C66", "title": "The reverberation renderer is completely wired and plays early plus late reverberation", "statement": "A ReverbObjectRenderer can be constructed unless its decorrelation filter file has fewer filters than there are loudspeakers, in which case it throws. Once constructed it passes the connection check (every receive channel inside has exactly one source, every send channel is used, all parameter ports are connected to matching ones), and every loudspeaker signal is the sum of the early part, where each reverb object's signal feeds its own discrete reflections in order (delay, filter, panning), and the late part (gain and delay, late filter, mix to one signal, decorrelation).", "quantifier": "All numbers of object signals, loudspeakers, reverb objects, reflections per object and filters in the file, and all effects of the contained components.", "why_tests_cant": "The number of connections and the routing of reflections depend on the configuration; tests use one or two configurations.", "anchors": ["src/libreverbobject/reverb_object_renderer.cpp: ReverbObjectRenderer::ReverbObjectRenderer", "src/libvisr/composite_component.cpp: audioConnection, parameterConnection"]}
{"id": "C67", "title": "The ready-made signal flows are complete", "statement": "The signal flows of libsignalflows (BaselineRenderer, BunchRenderer, DelayVector, GainMatrix, TimeFrequencyFeedthrough) can be constructed for every usable configuration, pass the connection check of the runtime engine, play what their core component makes of their input, and can be used under the names they are given.", "quantifier": "All arrays and numbers of objects, outputs, reverb objects, reflections and channels; all transform and hop sizes.", "why_tests_cant": "Completeness of the wiring must hold for every configuration; tests exercise single configurations.", "anchors": ["src/libsignalflows/baseline_renderer.cpp: BaselineRenderer", "src/libsignalflows/bunch_renderer.cpp: BunchRenderer", "src/libsignalflows/delay_vector.cpp: DelayVector", "src/libsignalflows/gain_matrix.cpp: GainMatrix", "src/libsignalflows/time_frequency_feedthrough.cpp: TimeFrequencyFeedthrough", "src/libsignalflows/core_renderer.cpp: CoreRenderer"]}
{"id": "C68", "title": "Interpolated filters are the weighted sums of the stored filters", "statement": "After setInterpolant(id, indices, weights) an interpolating convolver plays, for every routing with filter index id, the weighted sum of the convolutions of the input with the impulse responses that are stored under the indices at that moment, reached by a linear crossfade of the configured duration from the previous filter; later changes of the stored impulse responses have no effect until the next setInterpolant; ids up to the maximum number of routings are accepted, invalid ids, numbers of interpolants and filter indices are rejected without effect; the component applies all pending filter messages and then all interpolant messages before it filters a block.", "quantifier": "all sizes, transition lengths, initial settings, all histories of calls (filters, interpolants, routings, blocks of any real-valued input), all queues of messages", "why_tests_cant": "The result of a block depends on the whole history of filter, interpolant and routing changes and of the input; tests use a few filters, exact weights and fixed sizes", "anchors": ["src/librbbl/interpolating_convolver_uniform.cpp: InterpolatingConvolverUniform::setInterpolant, setImpulseResponse, initFilters, process", "src/librcl/interpolating_fir_filter_matrix.cpp: InterpolatingFirFilterMatrix::process"]}
{"id": "C69", "title": "Panning gains follow the time-stamped transitions", "statement": "A PanningGainMatrix applies to every object and loudspeaker a piecewise linear gain: each transition (start time, duration, gains) that is received at the beginning of a block and does not start in the past is stored, replacing an earlier stored one, and from its start time on the gain moves on a straight line from its value at that time to the new gain, which it reaches at the last sample of the duration (at once for duration zero) and keeps; entries marked as no change and entries in the past have no effect; the loudspeaker signals are the sums over all objects of object signal times gain, whatever the block size is; initial transitions act as a message for the first block.", "quantifier": "all numbers of objects and loudspeakers, block sizes, initial gains, all histories of blocks with arbitrary messages (start times, durations, gains per object) and signals", "why_tests_cant": "The gain of a sample depends on the whole history of messages and on how start and end times fall into blocks; tests replay a few trajectories at fixed block sizes", "anchors": ["src/libpanningdsp/panning_gain_matrix.cpp: PanningGainMatrix::process, processAudio, processAudioSingleSlope, updateTransition", "src/libpanningdsp/panning_gain_matrix.hpp: documentation of PanningGainMatrix", "src/libefl/reference/vector_functions_impl.hpp: vectorRampScaling"]}
{"id": "C70", "title": "Copies of panning messages equal the original", "statement": "A copy-constructed PanningMatrixParameter equals the original, assignment makes the target equal to the source, and every message has one start time and one duration for each object.", "quantifier": "all dimensions, gains, start times and durations, all targets", "why_tests_cant": "Tests use square or one-element matrices; the claim concerns all dimensions of source and target", "anchors": ["src/libpanningdsp/panning_matrix_parameter.cpp: PanningMatrixParameter constructors, operator=", "src/libpml/double_buffering_protocol.cpp: DoubleBufferingProtocol::swapBuffers"]}
{"id": "C71", "title": "UDP messages are transmitted exactly once and in order", "statement": "For every interleaving of the audio thread, the network thread and the network, the datagrams that a UdpSender puts on the network are the messages sent to its input, each exactly once, unchanged and in order; an idle sender has transmitted everything, from every state everything can be transmitted, at most one send operation is in progress, the message it refers to stays alive, the two threads never access the message buffer at the same time, and failures of the network neither terminate the program nor block later messages.", "quantifier": "both modes, all messages, all schedules of incoming messages, steps of process(), steps of the completion handler, and successful or failing transmissions", "why_tests_cant": "The hand-over between the audio and the network thread depends on the schedule, which a test cannot control; byte contents and failures range over unbounded sets", "anchors": ["src/librcl/udp_sender.cpp: UdpSender::process, UdpSender::Impl::process, handleSentData", "src/libpml/string_parameter.cpp: StringParameter::StringParameter( char const * )"]}
{"id": "C72", "title": "Vectorised functions compute the same as the reference functions on every processor", "statement": "Whatever processor the library was initialised on, and however often it was initialised and uninitialised, a call to vectorMultiply, vectorMultiplyAddInplace, vectorMultiplyConstantAddInplace or vectorRampScaling, for each element type that has a vectorised version, writes the documented value to every element of the result and changes no other memory, for every number of elements, every alignment promise that holds, and results that coincide with an input; wrong alignment promises are reported without changing memory; and only versions that the processor supports are selected.", "quantifier": "all processors (feature sets), all sequences of initialisation and uninitialisation, all nine vectorised functions, all numbers of elements, addresses, alignments and element values", "why_tests_cant": "Each combination of instruction set, alignment class, and remainder of the element number takes a different path, and tests run on one processor only", "anchors": ["src/libefl/intel_x86_64/vector_multiply.cpp", "src/libefl/intel_x86_64/vector_multiply_add.cpp", "src/libefl/intel_x86_64/vector_ramp_scaling.cpp", "src/libefl/intel_x86_64/initialise_library.cpp: initialiseLibrary, uninitialiseLibrary", "src/libefl/reference/vector_functions_impl.hpp"]}
{"id": "C73", "title": "A loaded loudspeaker array is the one described by its configuration", "statement": "Loading a loudspeaker array configuration succeeds if and only if the configuration is well-formed (distinct admissible names, distinct channels, exactly one position per loudspeaker, references to existing loudspeakers, readable equalisation filters), and a malformed configuration is rejected with an exception. A loaded array is exactly the one described: loudspeakers ordered by channel, virtual loudspeakers after them in the order of the file, each name resolved to its own index and back, and for every loudspeaker the position, gain, delay and equaliser of its own node; the re-routing and subwoofer matrices hold the gains of the named loudspeakers and zero elsewhere; triplets hold the indices of the named loudspeakers; no other name is known.", "quantifier": "all configurations with any number of loudspeakers, virtual loudspeakers, triplets, subwoofers and filters, in any order, with any missing or unreadable attributes; all coordinate and decibel conversions", "why_tests_cant": "The result depends on the order of the channels, on names resolved across four sections of the file and on every attribute being present or not; tests load a few array files", "anchors": ["src/libpanning/LoudspeakerArray.cpp: LoudspeakerArray::loadXmlStream, loudspeakerId, getSpeakerIndexFromId", "src/libpanning/LoudspeakerArray.h: LoudspeakerArray", "src/librbbl/biquad_coefficient.cpp: BiquadCoefficient::loadXml, BiquadCoefficientList::loadXml, BiquadCoefficientMatrix::setFilter"]}
{"id": "C74", "title": "An audio interface exchanges the samples of each block with the registered function, channel by channel", "statement": "While a PortAudio interface is running, each block captured by the device is passed, channel by channel, to the processing function registered last and not unregistered since; the function is called exactly once for it, and the device plays exactly the samples the function wrote, channel by channel, for interleaved and separate channel buffers. If the function throws, the stream ends. The device used is the one whose name is configured (or the default device) and has enough channels. No operation has undefined behaviour and a failed construction has no lasting effect.", "quantifier": "all configurations, channel counts, block sizes, alignments, device lists, processing functions, histories of registering, unregistering, starting, stopping and blocks, and all samples", "why_tests_cant": "The exchange is index arithmetic over two memory layouts for every channel count and block size, and the function in force depends on the whole history; a test runs one layout on the devices of one machine.", "anchors": ["src/libaudiointerfaces/portaudio_interface.cpp: engineCallbackFunction, transferCaptureBuffers, transferPlaybackBuffers, findDevice, start, stop, registerCallback, unregisterCallback", "src/librrl/communication_area.hpp: CommunicationArea"]}
{"id": "C75", "title": "The JACK interface has the ports and connections its configuration describes", "statement": "An interface created with a configuration has one port per channel, named in order as the elements of the configuration describe; a configuration describing another number of ports or duplicate names is rejected with std::invalid_argument. After any history of start, stop, (un)registrations and blocks, exactly while the interface is started (last start() succeeded, no stop() since) the server has these ports, capture ports as inputs and playback ports as outputs, and a connection from or to the described external port for each channel of a direction with automatic connection whose external port exists; otherwise there are no ports and connections. start() succeeds exactly if the server activates the client and accepts the ports and their names are distinct, and throws std::runtime_error otherwise. Each block of the agreed length while started is passed once to the function registered last with the samples of the capture ports in channel order, and the samples it gives go to the playback ports in channel order; blocks of another length and exceptions of the function are reported to the server, and at all other times no function is called.", "quantifier": "every configuration, every answer of the server, every set of ports of other clients, every processing function and every history of operations and blocks", "why_tests_cant": "The configuration tests use two fixed strings and need a running server; histories with restarts, refused ports, colliding names and missing external ports are not reachable by tests.", "anchors": ["src/libaudiointerfaces/jack_interface.cpp: JackInterface::Config::loadPortConfig, JackInterface::Impl::Impl, parseSpecificConf, registerPorts, unregisterPorts, connectPorts, disconnectPorts, start, stop, process, processCallbackFunction", "src/libaudiointerfaces/jack_interface.hpp"]}
{"id": "C76", "title": "Filter specifications in JSON and XML are read and written faithfully", "statement": "Reading a JSON object or XML element that describes a biquad section (coefficients relative to an optional a0), a list of sections, a matrix of sections, a parametric equaliser section or a list of them yields exactly the filter described, in order and independently of what the object held before. A specification that has been written is read back unchanged. A document that lacks or garbles a value is rejected with an exception, after which the object holds what it held before.", "quantifier": "every coefficient value, every list and matrix size, every document tree and every previous content of the object", "why_tests_cant": "The tests read and print a handful of fixed specifications and never read back what was written; documents, sizes and previous contents are unbounded, and failures in the middle of a document are not tested.", "anchors": ["src/librbbl/biquad_coefficient.cpp: BiquadCoefficient, BiquadCoefficientList, BiquadCoefficientMatrix: loadJson, loadXml, writeJson, writeXml, setFilter", "src/librbbl/biquad_coefficient.hpp", "src/librbbl/parametric_iir_coefficient.cpp: ParametricIirCoefficient, ParametricIirCoefficientList: loadJson, loadXml, writeJson, writeXml; TypeIdTranslator", "src/librbbl/parametric_iir_coefficient.hpp"]}
{"id": "C77", "title": "Matrices and vectors written as text or stored in audio files are read exactly", "statement": "A text with decimal numbers separated by white space or single commas, with comments introduced by a percent sign, is read as the vector of exactly these numbers in this order. A matrix text is read as the matrix whose rows are the lines (separated by newlines or semicolons) that contain numbers; rows of different lengths are rejected. Any other text is rejected with invalid_argument. An audio file yields a matrix with one row per channel and one column per frame, with each sample in its place; a file that cannot be read completely is rejected.", "quantifier": "every sequence of decimal numbers in every notation, every choice of separators, blanks and comments, every number of rows, and every number of channels and frames", "why_tests_cant": "The tests read a few fixed matrices; notations, separators, line structures and sizes are unbounded, and truncated audio files are never tried.", "anchors": ["src/libpml/matrix_parameter.cpp: MatrixParameter::fromString, fromStream, fromAudioFile", "src/libpml/vector_parameter.cpp: VectorParameter::fromString, fromStream, fromAudioFile", "src/libpml/matrix_parameter.hpp", "src/libpml/vector_parameter.hpp"]}
{"id": "C78", "title": "Sequences of numbers and ranges are read from text as the values they stand for", "statement": "A text with numbers and Matlab-style ranges start:end or start:step:end, separated by commas, is read as the sequence of exactly the values these stand for, in order: a range yields start, start+step, ... as long as the end is not passed in the direction of the step. A range with a step of zero or with more than three parts, and any other text, is rejected with an exception. The text of a sequence is read back as this sequence.", "quantifier": "every list of entries, every notation of numbers, every start, step and end, every placement of blanks", "why_tests_cant": "Texts, ranges and their lengths are unbounded; the tests parse a few fixed strings.", "anchors": ["src/librbbl/float_sequence.cpp: FloatSequence::FloatSequence( std::string const & ), toString", "src/librbbl/float_sequence.hpp"]}
{"id": "C79", "title": "The matrix convolver's filter matrix holds the impulse responses of the listed files at their places", "statement": "A comma-separated list of audio files, with optional surrounding quotation marks and spaces, is turned into a filter matrix in which every impulse response is at the start index of its file (the given offset, or directly after its predecessor) plus its channel number, padded with zeros to the filter length, and all other filters are zero. The length and number of the filters are the given limits, or the smallest that suffice. Overlapping places, responses that exceed the limits, missing or unreadable files, and a number of offsets that does not match are rejected with an exception; a list without files requires both limits.", "quantifier": "every list of files and contents, every offsets and limits, every order that the sort algorithm may choose for equal elements", "why_tests_cant": "Files, channels and offsets are unbounded; the checks depend on the relative order of all places. No test covers the function.", "anchors": ["src/apps/matrix_convolver/init_filter_matrix.cpp: initFilterMatrix, stringListToVec", "src/maxmspexternals/matrix_convolver/init_filter_matrix.cpp"]}
{"id": "C80", "title": "OSC datagrams set the values their messages contain", "statement": "For every datagram that is an OSC packet (a message or arbitrarily nested bundles of messages), the scalar OSC decoder appends exactly the value of each message, in the order of the packet, if each message's first argument has the configured type. Datagrams are decoded independently, in order. Whatever bytes are received, nothing outside the datagram is read, and values are delivered only if the datagram has the format of an OSC packet. The code departs from this where a message has an argument of another type (0 is delivered), where a negative number is sent for an unsigned value (the rest of the datagram is lost), for blobs that declare one of the four largest sizes (accepted), and for bundles without elements (rejected).", "quantifier": "all byte strings as datagrams, all sequences of datagrams, all nesting depths of bundles, all messages with any arguments, all five value types", "why_tests_cant": "the input is an arbitrary byte string from the network; tests can send a few packets but not all truncations, sizes and nestings", "anchors": ["3rd/include/oscpkt/oscpkt.hh: PacketReader::init, PacketReader::parse, Message::buildFromRawData, Message::getArgSize, ArgReader::popInt32, ArgReader::popBool", "src/librcl/scalar_osc_decoder.cpp: ScalarOscDecoder::setup, ScalarOscDecoder::process"]}
{"id": "C81", "title": "Converting sample types changes each element as the conversion says and nothing else", "statement": "For all lengths, strides and positions, the vector conversion functions write the conversion of element k of the source (at distance k times the input stride) to element k of the destination (at distance k times the output stride) and leave everything else unchanged; pointers without the requested alignment are rejected and nothing is written. Floating-point numbers become the nearest integer, the even one of two, if it is in the range of the type; integers come back unchanged. Out of range, the value wraps around instead of being limited.", "quantifier": "all source and destination arrays, positions, strides, lengths and alignments; all rational values and integer types from 1 to 64 bits", "why_tests_cant": "a test converts a few vectors with a few strides; off-by-one writes and ties or limits of the rounding depend on values and strides that it does not use", "anchors": ["src/libefl/vector_conversions.hpp: vectorConvert, vectorConvertInputStride, vectorConvertOutputStride, vectorConvertInputOutputStride", "src/libefl/reference/vector_conversions_impl.hpp: Converter"]}
{"id": "C82", "title": "Signal flows inside Matlab and Max/MSP get and deliver every sample", "statement": "A Matlab function passes the columns of its input matrix to the signal flow period by period, and the columns of its result are the outputs of the flow; matrices of the wrong type, number of rows or length are rejected. A Max/MSP external passes each block to the flow and its outputs to the host. The code departs from this: every Matlab function fails for every non-empty signal because the status is interpreted the wrong way round; in Max/MSP, errors of the flow leave the external as an object nobody catches, missing channels or samples are read although they were noticed, and the delay external never processes anything.", "quantifier": "all signal flows and their states, all signals of any number of channels and any length, all periods, all sample types and conversions", "why_tests_cant": "the wrappers only run inside Matlab or Max/MSP, and the correctness of the interleaving depends on all combinations of channel counts, periods and block numbers", "anchors": ["src/libmexsupport/mex_wrapper.cpp: MexWrapper::MexWrapper, MexWrapper::process, transferInputSamples, transferOutputSamples", "src/maxmspexternals/libmaxsupport/signal_flow_wrapper.cpp: SignalFlowWrapper::processBlock", "src/maxmspexternals/gain_matrix/gain_matrix.cpp: GainMatrix::perform", "src/maxmspexternals/visr_renderer/visr_renderer.cpp: VisrRenderer::perform", "src/maxmspexternals/matrix_convolver/matrix_convolver.cpp: MatrixConvolver::perform", "src/maxmspexternals/delay_vector/delay_vector.cpp: DelayVector::perform", "src/librrl/audio_signal_flow.cpp: AudioSignalFlow::process"]}
{"id": "C83", "title": "Vector functions compute their formula for every length, also in place, and touch nothing else", "statement": "Each of the 21 functions for vectors (zero, fill, ramp, copy, add, subtract, multiply, multiply-add, with constants, in place, ramp scaling) stores exactly the values of its formula, computed from the values before the call, in the n elements behind the output pointer and changes no other element of any array. This holds for every n and also if the output is one of the inputs, but not if they overlap in a part. The strided copy and fill touch exactly every s-th element. If a pointer does not have the requested alignment, the alignment error is returned and nothing is changed (ramp scaling: only in debug builds). A subtraction yields the minuend minus the subtrahend.", "quantifier": "all functions, lengths, contents, placements of the arrays (same, disjoint or parts of one array), strides, alignments and addresses", "why_tests_cant": "a test uses a few lengths and arrays of its own; it does not show that no other element changes, that in-place use is right for every function, or what happens at each alignment", "anchors": ["src/libefl/vector_functions.hpp", "src/libefl/reference/vector_functions_impl.hpp: vectorZero, vectorFill, vectorRamp, vectorCopy, vectorAdd, vectorSubtract, vectorMultiply, vectorMultiplyAdd, vectorCopyStrided, vectorFillStrided, vectorRampScaling", "src/libefl/alignment.hpp: checkAlignment"]}
{"id": "C84", "title": "Vector functions called from Python store the result in the caller's arrays or raise an exception", "statement": "Calling one of the vector functions of the Python module with one-dimensional contiguous arrays of one sample type, or with vectors of the library, and a number of elements that fits stores the result of the function's formula in the array passed as the output and changes nothing else. Arrays with too few elements, of other dimensions, with gaps or, for outputs, read-only ones raise an exception and change nothing, and so do arguments with insufficient alignment. No call reads or writes memory outside of the arrays. The strided copies, the strided conversions and the recursive filter access only elements inside of the arrays they accept.", "quantifier": "all functions, sample types, arrays (shapes, strides, types, read-only or not, contents), numbers of elements, alignments, constants, strides and section counts", "why_tests_cant": "the behaviour depends on the overload that is selected from the types of all arguments and on sizes that are converted between signed and unsigned numbers; tests call a few functions with matching arrays", "anchors": ["src/python/efl/vector_functions.cpp: exportVectorFunctions", "src/python/efl/vector_conversions.cpp: exportVectorConversions", "src/python/efl/filter_functions.cpp: export_iirFilterBiquadsSingleChannel", "src/python/libpythonbindinghelpers/container_access.hpp: ContainerAccess", "src/python/efl/check_error.hpp: checkError", "3rd/pybind11/include/pybind11/pybind11.h: cpp_function::dispatcher", "3rd/pybind11/include/pybind11/numpy.h: array_t"]}
{"id": "C85", "title": "Signals and matrices pass between Python arrays and the library element by element, whatever the memory layout", "statement": "Passing a NumPy array with one row per input channel to a signal flow processes exactly the elements of the array, also if the array is transposed, reversed, sliced, broadcast or a field of a structured array, and returns an array with the outputs of the flow; with the wrapper for other block sizes, any sequence of arrays of any lengths gives the output signals delayed by one period. Arrays of other types, dimensions, channel numbers or lengths raise an exception and process nothing. Matrices and vectors created or set from arrays have their elements, arrays created from matrices have the elements of the matrices, m[i,j] and its assignment access element (i,j) or raise an exception, and an array that refers to a matrix always shows its current elements.", "quantifier": "all arrays (types, shapes, strides, contents), flows, periods, sequences of calls, alignments, matrices, indices and sequences of operations on a matrix", "why_tests_cant": "the element addresses are computed with unsigned divisions of signed byte strides; layouts, numbers of samples and operation sequences are unbounded, and tests use contiguous arrays", "anchors": ["src/python/rrl/audio_signal_flow.cpp: wrapProcess", "src/python/rrl/flexible_buffer_wrapper.cpp: exportFlexibleBufferWrapper", "src/python/efl/basic_matrix.cpp: exportBasicMatrix", "src/python/efl/basic_vector.cpp: exportBasicVector", "src/python/libpythonbindinghelpers/ndarray_from_basic_matrix.hpp: ndArrayFromBasicMatrix"]}
{"id": "C86", "title": "The vector functions for ARM processors compute the same as the reference functions", "statement": "On ARM processors with NEON, each of the 24 functions vectorAdd, vectorMultiply, vectorMultiplyAdd and their variants with a constant and in place, for float and complex<float>, writes the documented value to every element of the result, for every number of elements and every placement of the vectors in which an operand is the result vector or does not overlap with it. It changes no other memory, accesses no memory outside the vectors, and its result does not depend on uninitialised variables. The effect is the same as that of the reference function; a function in place has the same effect as the other one called with the result vector as last operand; wrong alignment promises are reported without changing memory; and initialising and uninitialising the library selects all functions consistently.", "quantifier": "all functions, element types, numbers of elements, addresses, alignments, element values, memory contents and accessible ranges, and sequences of initialisations", "why_tests_cant": "each remainder of the element number takes another path, registers are only partly initialised, and the tests do not run on this processor", "anchors": ["src/libefl/armv7l_neon_32bit/vector_add.cpp: vectorAdd, vectorAddInplace, vectorAddConstant, vectorAddConstantInplace", "src/libefl/armv7l_neon_32bit/vector_multiply.cpp: vectorMultiply, vectorMultiplyInplace, vectorMultiplyConstant, vectorMultiplyConstantInplace", "src/libefl/armv7l_neon_32bit/vector_multiply_add.cpp: vectorMultiplyAdd, vectorMultiplyAddInplace, vectorMultiplyConstantAdd, vectorMultiplyConstantAddInplace", "src/libefl/armv7l_neon_32bit/initialise_library.cpp: initialiseLibrary, uninitialiseLibrary"]}
{"id": "C87", "title": "The FIR filter block with spread taps convolves the whole input signal", "statement": "After any history of setNumFIRs, setNumFIRsamples, setUpsampleRatio, loadFIRs, createWhiteTristateFIRs and process calls, process() of rbbl::FIR writes to each output channel the convolution of the complete input signal so far with the loaded coefficients, with taps as many samples apart as the accepted upsampling ratio, across all block boundaries and wraps of its buffer, and changes nothing else. loadFIRs accepts exactly matrices of the configured size, setUpsampleRatio refuses ratios which do not fit without effect, and tristate filters have the chosen signs.", "quantifier": "all histories of calls, numbers of filters and coefficients, ratios, coefficient values, input samples and random decisions", "why_tests_cant": "the buffer wraps only after 33 blocks, and each combination of ratio and length reads it in another pattern; a test covers few blocks and one combination", "anchors": ["src/librbbl/fir.cpp: FIR::FIR, FIR::loadFIRs, FIR::createWhiteTristateFIRs, FIR::process", "src/librbbl/fir.hpp: FIR::setNumFIRs, FIR::setNumFIRsamples, FIR::setUpsampleRatio"]}
{"id": "C88", "title": "The handling of denormalised numbers is set and restored exactly", "statement": "setDenormHandling selects exactly the requested flags in the control word of the calling thread, leaves rounding mode, exception masks and flags and all other threads as they are, and returns the handling selected before. Resetting to that state gives back the control word of before, whatever the same thread and other threads set and reset in between. Without arguments both flags are requested. On other processors nothing changes and the default state is returned. Calls of the main thread have no effect on the thread in which an audio interface runs the signal flow.", "quantifier": "all control words, requested states, and histories of calls in any number of threads", "why_tests_cant": "a test sees the one control word its thread starts with, and cannot see flags changed in other threads or in combinations which it does not set up", "anchors": ["src/libefl/denormalised_number_handling.cpp: DenormalisedNumbers::setDenormHandling, DenormalisedNumbers::resetDenormHandling", "src/python/efl/denormalised_number_handling.cpp: exportDenormalisedNumberHandling"]}
{"id": "C89", "title": "Parameter types and communication protocols are told apart by their identifiers", "statement": "The identifiers of all parameter classes and protocols of the library are pairwise distinct on every platform, and the identifier of any name of ASCII characters is its published 64-bit FNV-1 hash. Names of any length which differ in one character never have the same identifier, and names with a common end have equal identifiers only if they do without it. After the initialisation of the libraries the factory creates, for the identifier of a class, a parameter of that class. Constructing a registrar makes exactly its types known in addition, destroying it makes exactly these unknown.", "quantifier": "all names, all classes of the library, signed and unsigned char, and all histories of registrations", "why_tests_cant": "a test can compare some identifiers, but not exclude collisions for all names which users choose, nor for platforms it does not run on", "anchors": ["src/libvisr/detail/compile_time_hash_fnv1.hpp: compileTimeHashFNV1, fnv1", "src/libvisr/parameter_factory.hpp: ParameterRegistrar", "src/libpml/initialise_parameter_library.cpp: initialiseParameterLibrary", "src/libpanningdsp/initialise_parameter_library.cpp: initialiseParameterLibrary"]}
{"id": "C90", "title": "The crossover for frequency-dependent panning does not colour the sound", "statement": "In a renderer with frequency-dependent panning, for any number of objects and any blocks of samples, the low and high frequency signals of each object are the outputs of the two crossover filters for its complete signal. For a sinusoid of any frequency, amplitude and phase, the sum of the two outputs approaches a sinusoid of the same amplitude within one part in 100000. From zero to half the sampling frequency the gain of the low path decreases from 1 to 0 and that of the high path increases from 0 to 1; both are equal to 1/2 at 700 Hz. Bounded signals give bounded outputs.", "quantifier": "all numbers of objects, sequences of blocks, frequencies, amplitudes, phases, and bounded signals", "why_tests_cant": "a test measures some frequencies with finite signals; that the deviation is bounded for all frequencies and in the limit of time needs a proof", "anchors": ["src/libsignalflows/core_renderer.cpp: lowpass, highpass, CoreRenderer::CoreRenderer", "src/librcl/biquad_iir_filter.cpp: BiquadIirFilter::process"]}
{"id": "C91", "title": "Parameter values reach exactly the connected ports", "statement": "When a signal flow is constructed, every sending parameter port (an output of an atomic component or an input of the flow) gets its own protocol object of its protocol and parameter type. To this object exactly the receiving ports are attached that are connected to the sender, directly or through ports of composites, at any depth. The connected ports of the flow itself are accessible from outside under their names, and a value that is sent arrives at each receiver. The flow is rejected with an exception iff a composite is not well connected, a receiver has no source or several, a connection exists twice, ports do not match, the protocol or parameter type is unknown, or a message queue has several receivers. No real port stays unattached.", "quantifier": "all component trees with any number of composites, ports, connections and nesting depth, all protocols of the library, all parameter types and configurations, all values", "why_tests_cant": "The wiring is the result of a recursive collection, a resolution through composite ports of any depth, connected components of a graph and per-protocol rules; tests cover a few small flows.", "anchors": ["src/librrl/parameter_connection_graph.cpp: ParameterConnectionGraph", "src/librrl/parameter_connection_map.cpp: fillRecursive, resolvePlaceholders", "src/librrl/audio_signal_flow.cpp: AudioSignalFlow, initialiseParameterInfrastructure, externalParameterReceivePort, externalParameterSendPort", "src/libvisr/communication_protocol_factory.cpp: createProtocol"]}
{"id": "C92", "title": "Array configuration files give the gains and delays of the outputs", "statement": "A new array configuration accepts an XML file iff it describes the outputs 1 to n completely (a number, exactly one of the attributes gain and gainDB, optionally a delay), in any order of the nodes; otherwise it throws an exception. Afterwards the number of outputs, loudspeakers and subwoofers are those of the file, the i-th gain and delay are those of the node with the number i, and subwoofers are listed in the order of the file. Vectors of the wrong size are refused. A file can be loaded again, and a failed call has no effect.", "quantifier": "all files with any number of nodes in any order and with any attributes present, missing or unreadable, and all histories of successful and failed calls", "why_tests_cant": "tests load a few files into new objects; orders of nodes, combinations of attributes and histories of calls are unbounded", "anchors": ["src/libpml/array_configuration.cpp: ArrayConfiguration::loadXml", "src/libpml/array_configuration.hpp: getGains, getDelays, numberOfOutputs, numberOfLoudspeakers, numberOfSubwoofers, subwooferIndices"]}
{"id": "C93", "title": "Decorrelation filters keep the level of the late reverberation", "statement": "The filters that distribute the late reverberation to the loudspeakers have, whatever random phases are drawn, the requested gain at each frequency of the grid, and as phase there the value drawn for that loudspeaker and frequency. Without a configured gain the powers of all loudspeakers add up to one. Filters read from a file are its channels times the gain; files that are missing, unreadable or have too few channels are refused. The result does not depend on the FFT library.", "quantifier": "all numbers of loudspeakers, filter lengths, gains, sequences of random numbers and files", "why_tests_cant": "tests see the filters of one random sequence and a few lengths; the claim is about all sequences, lengths and numbers of loudspeakers", "anchors": ["src/libreverbobject/reverb_object_renderer.cpp: generateRandomPhaseAllpass, ReverbObjectRenderer::ReverbObjectRenderer", "src/librbbl/fft_wrapper_factory.cpp: FftWrapperFactory::create", "src/librbbl/ipp_fft_wrapper.hpp: forwardScalingFactor, inverseScalingFactor"]}
{"id": "C94", "title": "The default FFT computes the discrete Fourier transform", "statement": "For every even transform length, the forward transform of the default FFT implementation returns the bins of the discrete Fourier transform of the input and writes nothing behind them, the inverse transform returns the real sequence of the given bins, and transforming forward and back multiplies the input by the transform length. The result does not depend on earlier calls nor on memory behind the tables. Convolvers that use it therefore compute convolutions.", "quantifier": "all even transform lengths (with any prime factors), all inputs, all previous contents of the buffers", "why_tests_cant": "tests compare a few lengths, mostly powers of two, with reference values; radices 3, 5 and above and the two halves of the real transform are used only for particular lengths", "anchors": ["3rd/kissfft/kiss_fft.c: kf_factor, kf_work, kf_bfly2, kf_bfly3, kf_bfly4, kf_bfly5, kf_bfly_generic, kiss_fft_alloc, kiss_fft", "3rd/kissfft/tools/kiss_fftr.c: kiss_fftr_alloc, kiss_fftr, kiss_fftri", "src/librbbl/kiss_fft_wrapper_float.cpp: KissFftWrapper::forwardTransform, inverseTransform"]}
{"id": "C95", "title": "Command-line options and option files give the applications the settings they state", "statement": "After the options of an application are read, each option has the value given on the command line, else the value given in the option file named there, else its documented default. Values written in the documented file format arrive unchanged whatever characters they contain, numbers are read as the numbers they denote, problems are reported as failures, and the renderers run with exactly these settings and with one diffusion filter per loudspeaker.", "quantifier": "all command lines, all sets of registered options, all option files, all loudspeaker arrays", "why_tests_cant": "there are no tests of the options; combinations of command line, file, defaults and notations are unlimited", "anchors": ["src/libapputilities/options.cpp: Options::Options, parse, hasOption, at_option_parser", "src/libapputilities/options.hpp: getOption, getDefaultedOption, registerOption, registerPositionalOption", "src/apps/visr_renderer/main.cpp: main", "src/apps/visr_renderer/options.cpp: Options::Options", "src/apps/baseline_renderer/main.cpp: main", "src/apps/baseline_renderer/options.cpp: Options::Options", "src/apps/python_runner/options.cpp: Options::Options"]}
{"id": "C96", "title": "Python components used from C++ appear exactly as the component they contain", "statement": "A wrapper around a Python component loads the named module from the given directories (any number of them, separated by commas or blanks, in addition to the system path), finds the class by its possibly nested name, creates it with the given name and arguments, and offers exactly the ports of the created component: same names, directions, types, widths, protocols and configurations in the same order, each connected channel by channel to its counterpart inside. A well-connected component therefore stays well connected. Everything that fails on the way is reported as a runtime error. The wrapper is known to its parent by the name given.", "quantifier": "all directory lists and texts, all states of the interpreter, all modules, nested class names and components with any number, direction and width of ports", "why_tests_cant": "the tests wrap two concrete components with fixed ports; components, directory names and interpreter states are unlimited", "anchors": ["src/libpythonsupport/load_module.cpp: loadModule, pathStringToSequence", "src/libpythoncomponents/wrapper.cpp: Wrapper::Wrapper, Wrapper::Impl::Impl", "src/libpythoncomponents/wrapper.hpp: Wrapper"]}
{"id": "C97", "title": "Parameters have the form stated by the configurations of the ports they pass through", "statement": "For every parameter class and every configuration its ports can have, a parameter of exactly the stated size with default elements is created. Configurations are compatible if and only if they are equal, and configurations of another class are refused with std::invalid_argument. If two ports are connected, every parameter the connection contains has the size stated by the configurations of both. An assignment makes the destination equal to the source, parameters created from the same configuration can be assigned, and parameters of another class or of another fixed size are refused.", "quantifier": "all parameter classes, all configurations of all classes and sizes, all pairs of ports, all protocols, all contents", "why_tests_cant": "the tests create two classes with one configuration each; sizes and combinations of classes and configurations are unlimited", "anchors": ["src/libpml/empty_parameter_config.cpp: compare", "src/libpml/vector_parameter_config.cpp: compare", "src/libpml/matrix_parameter_config.cpp: compare", "src/libpml/time_frequency_parameter_config.cpp: compare", "src/libpml/interpolation_parameter.cpp: InterpolationParameterConfig::compare", "src/libpml/biquad_parameter.hpp: DEFINE_PARAMETER_TYPE", "src/libpml/biquad_parameter.cpp: constructors", "src/libpml/scalar_parameter.cpp: constructors", "src/libpml/string_parameter.cpp: constructors", "src/libpml/indexed_value_parameter.cpp: constructors", "src/libpml/filter_routing_parameter.cpp: constructors", "src/libpml/sparse_gain_routing_parameter.cpp: constructors", "src/libpml/signal_routing_parameter.cpp: SignalRoutingParameter(ParameterConfigBase const &)", "src/libvisr/parameter_factory.cpp: create", "src/libvisr/typed_parameter_base.hpp: assign", "src/librrl/port_utilities.cpp: checkParameterPortCompatibility"]}
{"id": "C98", "title": "The clock of the components counts the processed blocks", "statement": "In every program, after a signal flow has been accepted for a component, the clocks of all components of its tree show the number of completed blocks since then, this number times the period, and the corresponding time. All components of a tree read the same time, during a block it is the time at the start of the block, blocks which fail are not counted, and the trees are independent. The clock is monotonic.", "quantifier": "all histories of constructions of components with any parents and contexts, of accepted and refused signal flows, and of completed and failed blocks; all components", "why_tests_cant": "the tests contain no test of the clock; histories, trees and numbers of signal flows are unlimited", "anchors": ["src/libvisr/time.hpp: Time", "src/libvisr/time.cpp: Time", "src/libvisr/impl/time_implementation.cpp: TimeImplementation", "src/libvisr/impl/component_implementation.cpp: ComponentImplementation", "src/librrl/audio_signal_flow.cpp: AudioSignalFlow, executeComponents"]}
{"id": "C99", "title": "The life of a renderer application", "statement": "A renderer application plays from the moment its audio interface is started until the letter q is typed, and ends with exit code zero exactly then or if its help text or version was asked for; every failure of any part ends with exit code one and no exception leaves the program. The interface is created with the name, channels, sampling frequency, period and options the user gave; exactly the registered names are accepted and listed in alphabetical order, and the program does not play if the mandatory option for the interface is missing. Audio is only processed while the signal flow exists: the interface starts after the flow is registered and is destroyed before it, also after failures, and nothing created is left at the end. The program ends when its input ends, and restores the floating-point mode.", "quantifier": "all command lines, option files, loudspeaker arrays, registrations of audio interfaces, outcomes of the construction of the renderer, the signal flow and the interface and of its operations, and all inputs on the console", "why_tests_cant": "the main functions are not covered by tests; the failures that can occur in each part and the inputs on the console are unlimited", "anchors": ["src/apps/visr_renderer/main.cpp: main", "src/apps/baseline_renderer/main.cpp: main", "src/libaudiointerfaces/audio_interface_factory.cpp: AudioInterfaceFactory", "src/libaudiointerfaces/audio_interface_factory.hpp: registerAudioInterfaceType"]}
{"id": "C100", "title": "Scenes sent to another program", "statement": "If one program sends its object scene with a scene encoder in each block and another one receives it with a scene decoder, then, however the network loses, delays, repeats or reorders the messages, neither program fails, every object shown at the receiver is an object as it was in one of the sent scenes and is shown at most once, and after a block in which a message arrived the receiver shows the scene of the last message: its objects as they were sent, and no others.", "quantifier": "all histories of blocks of the sender and of the receiver, all scenes of objects that messages represent exactly, and all losses, delays, repetitions and reorderings of messages", "why_tests_cant": "The shown scene depends on the whole history of messages and on how many of them arrive in each block; a test sends a few messages in order, one per block, and never removes an object.", "anchors": ["src/librcl/scene_encoder.cpp: SceneEncoder::process", "src/librcl/scene_decoder.cpp: SceneDecoder::process", "src/libobjectmodel/object_vector_parser.cpp: ObjectVectorParser::encodeObjectVector, ObjectVectorParser::updateObjectVector"]}
{"id": "C101", "title": "The runtime measurements that Python retrieves", "statement": "getMeasurements of the Python class RuntimeProfiler returns the times of the most recent iterations since the last retrieval or reset, as many as the measurement buffer holds, one row per iteration, oldest first; it never fails, whatever the audio thread does in the meantime, and no iteration is returned twice.", "quantifier": "all numbers of components, all sizes of the buffer, all histories of measured iterations, queries and resets, and all calls of the audio thread during the retrieval", "why_tests_cant": "The order depends on how often the ring buffer has wrapped and on iterations that finish while the array is filled; tests retrieve a few iterations that fit into the buffer.", "anchors": ["src/python/rrl/runtime_profiler.cpp: exportRuntimeProfiler (getMeasurements)", "src/librrl/runtime_profiler.cpp: RuntimeProfiler::getMeasurements, RuntimeProfiler::measurementSamples, RuntimeProfiler::finishIteration"]}
{"id": "C102", "title": "Components written in Python read and write whole blocks of audio", "statement": "In a component written in Python, data() of an audio port is a matrix with one row per channel and one column per sample of the block and contains the samples of the block; after set(matrix) with a matrix of this shape the port contains its elements, for every memory layout of the matrix; other shapes and channels that do not exist are refused with an exception; elements assigned to the arrays that an output returns become its output; and Python loops over ports, positions and filter matrices visit the elements in order and end.", "quantifier": "all block lengths, sample sizes, numbers of channels, contents, shapes and strides of the matrices, and all sequences of accesses and assignments", "why_tests_cant": "Tests use block lengths that are multiples of the alignment and contiguous matrices; padding, strides and lost assignments show only for other lengths, layouts and histories.", "anchors": ["src/python/visr/audio_port.cpp: getInputBuffer, getOutputBuffer, getInputChannel, getOutputChannel, setOutputBuffer", "src/librrl/audio_signal_flow.cpp: AudioSignalFlow::initialiseAudioConnections (channelSizeSamples)", "src/libvisr/audio_output.hpp: AudioOutputT::at", "src/python/rbbl/position_3d.cpp: __getitem__", "src/python/rbbl/biquad_coefficient.cpp: BiquadCoefficientMatrix __getitem__"]}
{"id": "C103", "title": "The matrix convolver application plays with the given settings, ends with a meaningful exit code and releases what it created", "statement": "The matrix convolver application plays with the channel numbers, routings, filter files, limits, period, sampling frequency, FFT library and audio interface given on the command line or in the option file, and with the documented defaults for the others. It never plays with more routings than its limit. It plays until a letter q is typed. Its exit code is zero exactly after a run without failure or a request for information, one after any failure. The audio interface is stopped before its callback is removed, and destroyed before the signal flow and the convolver; the handling of denormalised numbers is restored exactly once, also after a failure.", "quantifier": "every command line and option file, every content of the filter files, every text of routings, every outcome of the construction of the convolver, the signal flow and the audio interface and of its operations, every sequence of characters on the console", "why_tests_cant": "The order of destruction after each possible failure, the effect of every combination of options on the settings and the behaviour for every console input cannot be enumerated; failures of audio hardware cannot be provoked in unit tests.", "anchors": ["src/apps/matrix_convolver/main.cpp: main", "src/apps/matrix_convolver/options.cpp: Options", "src/apps/matrix_convolver/init_filter_matrix.cpp: initFilterMatrix", "src/librbbl/index_sequence.cpp: IndexSequence"]}
{"id": "C104", "title": "Python objects are only used by the thread that holds the interpreter lock", "statement": "Components written in Python can be constructed, called and destroyed from any threads of a C++ program. Their Python objects are only used by the thread that holds the interpreter lock and after the interpreter was initialised, also if the construction of a component fails. Threads do not block each other for ever, and each thread returns the lock when it is done; the initialisation leaves the lock free.", "quantifier": "every number of threads, every sequence of constructions (successful or failing at any stage), calls, destructions and guards in each thread, every interleaving", "why_tests_cant": "Misuse of the lock is a data race that usually goes unnoticed; the interleavings of threads and the failure stages inside a constructor cannot be enumerated by tests.", "anchors": ["src/libpythonsupport/initialisation_guard.cpp: InitialisationGuard::initialise", "src/libpythonsupport/gil_ensure_guard.cpp: GilEnsureGuard", "src/libpythoncomponents/wrapper.cpp: Wrapper::Impl::Impl, Wrapper::~Wrapper", "src/apps/visr_renderer/main.cpp: main", "src/apps/python_runner/main.cpp: main"]}
{"id": "C105", "title": "Audio objects keep what was set", "statement": "Each attribute of an audio object reads as the last value given to it, and has a defined value before. Type and id never change. The number of channels is the last one asked for; refused calls change nothing. The list of channels assigned from Python reads back, as does the position. A channel object has one list of output loudspeakers for each channel. A clone has the type and the values of the original and is independent of it. A point source is reported as locked to loudspeakers if a lock distance was set.", "quantifier": "every type of audio object, every sequence of calls including refused ones, all values, every list of channels and outputs, every program that clones and changes objects", "why_tests_cant": "The state depends on the complete history of calls for each of the eight object types; indeterminate values usually look like zeros in tests.", "anchors": ["src/libobjectmodel/object.cpp: Object", "src/libobjectmodel/point_source.cpp: PointSource", "src/libobjectmodel/plane_wave.cpp: PlaneWave", "src/libobjectmodel/channel_object.cpp: ChannelObject", "src/python/objectmodel/object.cpp: getChannels, setChannels", "src/python/objectmodel/point_source.cpp: exportPointSource"]}
{"id": "C106", "title": "Reverberation settings of point sources read back", "statement": "The late reverberation of a point source with reverberation always has nine levels, decay coefficients and attack times, which read as last set; other numbers of values are refused. Its settings can be constructed with one value for all bands, nine values, or none for the default. Each discrete reflection has ten filters: setting up to ten makes the others flat, more are refused. Position, delay and level read back. A call changes the reflection it is for, indices that do not exist are refused, a list of reflections set from Python reads back. A new number of reflections invalidates those set before.", "quantifier": "every sequence of calls including refused ones, every number of reflections, all values and filters, every history of reflections passed from Python", "why_tests_cant": "Sizes that the renderer relies on must hold after every history of resizing, refused and accepted calls.", "anchors": ["src/libobjectmodel/point_source_with_reverb.cpp: PointSourceWithReverb, DiscreteReflection, LateReverb", "src/libobjectmodel/point_source_with_reverb.hpp: PointSourceWithReverb", "src/python/objectmodel/point_source_with_reverb.cpp: setReflectionPosition, setDiscreteReflections, setArray"]}
{"id": "C107", "title": "The feedthrough application connects inputs to outputs", "statement": "For every number of input and output channels, the signal flow of the feedthrough application can be constructed. Each output channel is fed by exactly one input channel: the one of the same number, starting again from the first if there are more outputs than inputs. Inputs without an output are connected to a component that consumes them.", "quantifier": "all numbers of inputs and outputs", "why_tests_cant": "The loop that repeats the inputs must end and cover each output exactly once for all pairs of channel numbers, including zero and numbers that do not divide each other.", "anchors": ["src/apps/feedthrough/signal_flow.cpp: Feedthrough::Feedthrough", "src/apps/feedthrough/signal_flow.hpp: AudioTerminator"]}
{"id": "C108", "title": "Panning messages read back in Python", "statement": "A PanningMatrixParameter constructed in Python from a matrix of gains and arrays of start times and durations has these gains and times, with one start time and one duration per object. After any assignments to gains, timeStamps and transitionTimes, each reads as last assigned with the right dimensions; arrays of other dimensions raise ValueError and change nothing.", "quantifier": "all dimensions, all array contents, all sequences of assignments including rejected ones", "why_tests_cant": "The values must survive every sequence of accepted and rejected assignments, for all dimensions.", "anchors": ["src/python/panningdsp/panning_matrix_parameter.cpp: exportPanningMatrixParameter, arrayFromNdArray, copy", "src/python/libpythonbindinghelpers/matrix_from_ndarray.hpp: matrixFromNdArray"]}
{"id": "C109", "title": "Time-frequency parameters and NumPy arrays hold the same elements", "statement": "A time-frequency parameter made in Python from a three-dimensional array has the dimensions of the array; each element reads as in the array, by index and when the parameter is used as an array. Assigning an element changes that element and no other. Arrays with another number of dimensions raise ValueError, and indices that do not exist raise an exception.", "quantifier": "all dimensions, elements, alignments and indices", "why_tests_cant": "The storage is padded to the alignment; indices and strides must match for all dimensions and alignments.", "anchors": ["src/python/pml/time_frequency_parameter.cpp: exportTimeFrequencyParameter", "src/libpml/time_frequency_parameter.hpp: TimeFrequencyParameter::at, numberOfFrames, frameStride"]}
