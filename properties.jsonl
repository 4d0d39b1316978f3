{"id": "C01", "title": "Adding an object stores it and keeps the others", "statement": "When an object with attribute arrays is successfully added to a managed buffer, the buffer holds exactly one more object, the new object's type id, size, handle bytes and attribute arrays read back as given, and every object that was stored before reads back unchanged.", "quantifier": "all buffers reachable by the API, all handles, attribute layouts, counts and contents", "why_tests_cant": "Tests add a handful of fixed beam elements; the claim covers every payload size, attribute count and prior history, including alignment padding between parts.", "anchors": ["sixtracklib/common/buffer/buffer_generic.h: NS(Buffer_add_object_generic)", "sixtracklib/common/buffer.h: NS(Buffer_add_object)"]}
{"id": "C02", "title": "A buffer is a list of objects", "statement": "For every history of object additions and growth operations, iterating the buffer yields exactly the added objects, in the order of addition, with the contents they were added with.", "quantifier": "all finite sequences of add / reserve operations starting from a freshly initialised buffer", "why_tests_cant": "Histories are unbounded; a defect may need a particular interleaving of growth and additions.", "anchors": ["sixtracklib/common/buffer/buffer_generic.h: NS(Buffer_add_object_generic), NS(Buffer_reserve_generic)", "sixtracklib/common/buffer/managed_buffer.h: NS(ManagedBuffer_reserve)"]}
{"id": "C03", "title": "Relocated buffers remap to the same contents", "statement": "If the bytes of a valid buffer are copied to any other address and remapped there, the remap succeeds and the objects and the attribute arrays they point to are the same as in the original.", "quantifier": "all valid buffers and all pairs of base addresses that do not overflow", "why_tests_cant": "Addresses are chosen by the allocator; tests only see the few relocations that happen to occur.", "anchors": ["sixtracklib/common/buffer/managed_buffer_remap.h: NS(ManagedBuffer_remap)", "sixtracklib/common/buffer/buffer.c: NS(Buffer_new_from_copy)"]}
{"id": "C04", "title": "Remapping is idempotent", "statement": "After a successful remap the buffer no longer reports that it needs remapping, and remapping again changes nothing.", "quantifier": "all valid buffers and all base addresses", "why_tests_cant": "Quantifies over every address difference and layout.", "anchors": ["sixtracklib/common/buffer/managed_buffer_remap.h: NS(ManagedBuffer_remap), NS(ManagedBuffer_get_addr_offset)", "sixtracklib/common/buffer/managed_buffer_minimal.h: NS(ManagedBuffer_needs_remapping)"]}
{"id": "C05", "title": "Writing with a normalised base address is lossless", "statement": "Shifting all addresses of a buffer to a normalised base address, as is done when writing a file, and shifting back (or reading and remapping) restores the original buffer.", "quantifier": "all valid buffers and all normalised base addresses", "why_tests_cant": "The set of base addresses and layouts is unbounded; the default tests use one normalised address.", "anchors": ["sixtracklib/common/buffer/managed_buffer_remap.h: NS(ManagedBuffer_apply_addr_offset)", "sixtracklib/common/buffer/buffer.c: NS(Buffer_write_to_fp_normalized_addr)"]}
{"id": "C06", "title": "In-place reserve is all-or-nothing", "statement": "Reserving capacity in an existing block of memory either succeeds with at least the requested capacities and unchanged contents, or fails and leaves the buffer unchanged.", "quantifier": "all valid buffers and all requested capacities", "why_tests_cant": "Whether sections have to be moved up, down or both depends on four capacities at once; failing in the middle of the moves is not reached by the tests.", "anchors": ["sixtracklib/common/buffer/managed_buffer.h: NS(ManagedBuffer_reserve)"]}
{"id": "C07", "title": "Sections never overlap", "statement": "In every reachable buffer the header, slots, objects, data-pointer and garbage sections are pairwise disjoint, aligned to the slot size, inside the reported length, and no section uses more entries than it has reserved.", "quantifier": "all reachable buffers", "why_tests_cant": "An invariant over all histories.", "anchors": ["sixtracklib/common/buffer/managed_buffer.h: NS(ManagedBuffer_init), NS(ManagedBuffer_calculate_section_size)", "sixtracklib/common/buffer/managed_buffer_minimal.h"]}
{"id": "C08", "title": "Size predictions are exact", "statement": "The buffer length computed for a set of capacities is exactly the length of a buffer initialised with them, and the number of slots predicted for an object is exactly the number of slots adding it consumes.", "quantifier": "all capacities, slot sizes, object sizes and attribute layouts", "why_tests_cant": "Callers size device buffers with these predictions; an off-by-one for some size combination corrupts memory.", "anchors": ["sixtracklib/common/buffer/managed_buffer.h: NS(ManagedBuffer_calculate_buffer_length), NS(ManagedBuffer_predict_required_num_slots)", "sixtracklib/common/buffer/buffer_generic.h: NS(Buffer_add_object_generic)"]}
{"id": "C09", "title": "Clearing empties the buffer and keeps the capacity", "statement": "After clearing, the buffer contains no objects, all its capacities and its address are unchanged, and objects can again be added up to the capacity.", "quantifier": "all valid buffers", "why_tests_cant": "Quantifies over all prior histories.", "anchors": ["sixtracklib/common/buffer/managed_buffer.h: NS(ManagedBuffer_clear)", "sixtracklib/common/buffer/buffer_generic.h: NS(Buffer_clear_generic)"]}
{"id": "C10", "title": "Adding succeeds whenever there is room", "statement": "Adding an object to a buffer succeeds whenever the buffer's spare capacity in all sections suffices, or it may grow.", "quantifier": "all valid buffers and all object layouts", "why_tests_cant": "Depends on the relation of four used counts and four limits; most combinations are never tried.", "anchors": ["sixtracklib/common/buffer/buffer_generic.h: NS(Buffer_add_object_generic)", "sixtracklib/common/buffer/managed_buffer.h: NS(ManagedBuffer_reserve)"]}
{"id": "C11", "title": "Object lookup is total on valid indices and null outside", "statement": "Looking up an object by index returns the object for indices smaller than the number of objects and a null result for every other index.", "quantifier": "all valid buffers and all indices", "why_tests_cant": "The boundary index equal to the number of objects must be covered for every buffer.", "anchors": ["sixtracklib/common/buffer/managed_buffer_minimal.h: NS(ManagedBuffer_get_const_object)"]}
{"id": "C12", "title": "The capacity query reports the missing capacity", "statement": "Asking whether an object can be added answers yes exactly if the object fits, and reports how many objects, slots and data pointers the buffer has to provide for it.", "quantifier": "all valid buffers and all object layouts", "why_tests_cant": "Quantifies over all fill states and object layouts.", "anchors": ["sixtracklib/common/buffer.h: NS(Buffer_can_add_object)"]}
{"id": "C13", "title": "Memory pool allocations are disjoint, aligned and in bounds", "statement": "Every successful allocation from a memory pool lies inside the pool, starts at an address that is a multiple of the requested alignment and does not overlap any other live allocation; a failed allocation leaves the pool unchanged.", "quantifier": "all pools, all finite allocation histories, all sizes and alignments", "why_tests_cant": "Histories are unbounded and the arithmetic mixes alignment, chunk size and wrap-around.", "anchors": ["sixtracklib/common/buffer/mem_pool.h: NS(MemPool_append_aligned), NS(MemPool_get_next_begin_offset)"]}
{"id": "C14", "title": "Alignment arithmetic", "statement": "The greatest common divisor, least common multiple, common alignment and binary logarithm helpers return the mathematically correct values.", "quantifier": "all 64-bit arguments (for which the result is representable)", "why_tests_cant": "64-bit domains cannot be enumerated.", "anchors": ["sixtracklib/common/buffer/alignment.h: NS(greatest_common_divisor), NS(least_common_multiple), NS(Alignment_calculate_common), NS(log2_floor), NS(log2_ceil)", "sixtracklib/common/buffer/alignment.c: NS(Alignment_calculate_commonN)"]}
{"id": "C15", "title": "Array objects behave like lists of byte strings", "statement": "Appending an element to a binary array object makes it the last element, with the given bytes, and leaves the other elements unchanged; removing the last element undoes it.", "quantifier": "all array objects, all histories of append and remove, all element contents", "why_tests_cant": "Unbounded histories and element sizes.", "anchors": ["sixtracklib/common/buffer/buffer_array_object.h: NS(BufferArrayObj_append_element)", "sixtracklib/common/buffer/binary_vector.h"]}
{"id": "C16", "title": "Status codes survive the debug register", "statement": "Storing a status code in a debug register and reading it back returns the same code; storing it leaves the error flags unchanged, and the register reports that a status is set exactly if a nonzero code is stored.", "quantifier": "all 32-bit status codes (for which the code is representable) and all register contents", "why_tests_cant": "The 32 x 64 bit domain cannot be enumerated.", "anchors": ["sixtracklib/common/control/debug_register.h: NS(DebugReg_store_arch_status), NS(DebugReg_get_stored_arch_status)"]}
{"id": "C17", "title": "Raising error flags never hides an earlier one", "statement": "Each raise of the next error flag sets one flag that was not set before and keeps all others, until all flags are used.", "quantifier": "all registers and all numbers of raises", "why_tests_cant": "64-bit register contents cannot be enumerated.", "anchors": ["sixtracklib/common/control/debug_register.h: NS(DebugReg_raise_next_error_flag), NS(DebugReg_get_next_error_flag)"]}
{"id": "C18", "title": "Pointer assignments are order and partition independent", "statement": "Performing a list of address assignments writes for every listed item the address of its source into its destination and changes nothing else, and the result is the same for every way of distributing the items over work-items.", "quantifier": "all item lists with distinct destinations, all strides, all interleavings", "why_tests_cant": "Schedules and distributions are unbounded.", "anchors": ["sixtracklib/common/buffer/assign_address_item_kernel_impl.h: NS(AssignAddressItem_perform_address_assignments_kernel_impl)"]}
{"id": "C19", "title": "Element-by-element records never collide", "statement": "Within the configured range every combination of particle, element and turn gets its own record in the output, and all records lie inside the output.", "quantifier": "all configurations and all particle, element and turn ids in range", "why_tests_cant": "Three unbounded ids; a collision silently overwrites data.", "anchors": ["sixtracklib/common/output/elem_by_elem_config.h: NS(ElemByElemConfig_get_particles_store_index_details)"]}
{"id": "C20", "title": "Element-by-element record indices can be decoded", "statement": "The particle id, element id and turn recovered from a record index are those from which the index was calculated, and calculating the index from them gives the index again.", "quantifier": "all configurations and all record indices", "why_tests_cant": "Unbounded domain.", "anchors": ["sixtracklib/common/output/elem_by_elem_config.h: NS(ElemByElemConfig_get_particle_id_from_store_index), NS(ElemByElemConfig_get_at_element_id_from_store_index), NS(ElemByElemConfig_get_at_turn_from_store_index)"]}
{"id": "C21", "title": "Rolling element-by-element output keeps the most recent turns", "statement": "With rolling output, the records that remain after any number of turns are those of the most recent turns that fit.", "quantifier": "all configurations and all numbers of turns", "why_tests_cant": "Unbounded number of turns.", "anchors": ["sixtracklib/common/output/elem_by_elem_config.h: NS(ElemByElemConfig_get_particles_store_index_details)"]}
{"id": "C22", "title": "Turn-ordered beam monitors store each selected turn once", "statement": "A turn-ordered beam monitor stores exactly the turns start, start+skip, start+2*skip, ... in separate records inside its output; with rolling enabled the most recent ones are kept.", "quantifier": "all monitors, particles and turns", "why_tests_cant": "Unbounded turn counts and skip values.", "anchors": ["sixtracklib/common/be_monitor/track.h: NS(BeamMonitor_get_store_particle_index)"]}
{"id": "C23", "title": "Particle-ordered beam monitors store each selected turn once", "statement": "As for turn-ordered monitors: every (particle, stored turn) pair has its own record inside the monitor's output.", "quantifier": "all monitors, particles and turns", "why_tests_cant": "Collisions depend on the number of stores and particles.", "anchors": ["sixtracklib/common/be_monitor/track.h: NS(BeamMonitor_get_store_particle_index)"]}
{"id": "C24", "title": "Monitor outputs are assigned in order, exclusively and with sufficient size", "statement": "After assigning an output buffer, every active monitor writes to an output object of its own that is large enough for all records it can produce; inactive monitors get none.", "quantifier": "all lattices and all output buffers", "why_tests_cant": "Quantifies over all lattices.", "anchors": ["sixtracklib/common/be_monitor/output_buffer.h: NS(BeamMonitor_assign_managed_output_buffer)"]}
{"id": "C25", "title": "A prepared output buffer can be assigned", "statement": "Assigning the output buffer that was prepared for a lattice succeeds.", "quantifier": "all lattices with any mixture of active and inactive monitors", "why_tests_cant": "Depends on position and kind of every monitor in the lattice.", "anchors": ["sixtracklib/common/be_monitor/output_buffer.h: NS(BeamMonitor_assign_managed_output_buffer)", "sixtracklib/common/be_monitor/output_buffer.c: NS(BeamMonitor_prepare_output_buffer_detailed), NS(BeamMonitor_assign_output_buffer)"]}
{"id": "C26", "title": "Output size prediction equals what is prepared", "statement": "The number of output objects and particles predicted for a lattice is the number that preparing the output buffer creates.", "quantifier": "all lattices and turn ranges", "why_tests_cant": "Quantifies over all lattices.", "anchors": ["sixtracklib/common/be_monitor/output_buffer.c: NS(BeamMonitor_calculate_output_buffer_params_detailed), NS(BeamMonitor_prepare_output_buffer_detailed)"]}
{"id": "C27", "title": "Duplicate particle ids are detected", "statement": "Determining the range of particle ids succeeds exactly if no two particles have the same absolute id, and then returns the smallest and largest absolute id.", "quantifier": "all particle sets of any size", "why_tests_cant": "The check is a merge sort; all sizes and orders matter.", "anchors": ["sixtracklib/common/particles/particles.c: NS(Particles_get_min_max_particle_id_value), NS(Particles_recursive_merge_sort)"]}
{"id": "C28", "title": "Attribute ranges are tight", "statement": "The minimum and maximum of the particle ids, element ids and turns reported for a particle set bound all values and are attained.", "quantifier": "all particle sets", "why_tests_cant": "All sizes and value orders.", "anchors": ["sixtracklib/common/particles.h: NS(Particles_get_min_max_particle_id_value_no_duplicate_check), NS(Particles_get_min_max_at_element_id_value), NS(Particles_get_min_max_at_turn_value)"]}
{"id": "C29", "title": "Copying particles copies exactly the requested range", "statement": "Copying a range of particles succeeds only for ranges inside source and destination; then the destination range equals the source range and everything else is unchanged.", "quantifier": "all particle sets, ranges and target positions", "why_tests_cant": "All index combinations including out-of-range ones.", "anchors": ["sixtracklib/common/particles.h: NS(Particles_copy_single), NS(Particles_copy_range), NS(Particles_copy)"]}
{"id": "C30", "title": "Tracking can be interrupted and resumed", "statement": "Tracking until turn A and then until turn B gives the same particle state as tracking until turn B directly.", "quantifier": "all lattices, all particles at the start of a turn, all A <= B", "why_tests_cant": "Unbounded number of turns and elements.", "anchors": ["sixtracklib/common/track/track.h: NS(Track_particle_until_turn_objs)"]}
{"id": "C31", "title": "Lost particles stay lost and are frozen", "statement": "Once a particle is lost it stays lost, and no tracking call changes its coordinates, turn or element.", "quantifier": "all lattices, particles and tracking calls", "why_tests_cant": "All histories of tracking calls.", "anchors": ["sixtracklib/common/track/track.h: NS(Track_particle_until_turn_objs), NS(Track_particle_line_objs), NS(Track_particle_element_by_element_until_turn_objs)", "sixtracklib/common/particles.h: NS(Particles_mark_as_lost_value)"]}
{"id": "C32", "title": "Tracking a line in pieces equals tracking a turn", "statement": "Tracking consecutive segments of the lattice with the end of turn at the last segment gives the same result as tracking one full turn.", "quantifier": "all lattices and all splittings", "why_tests_cant": "Unbounded number of segments.", "anchors": ["sixtracklib/common/track/track.h: NS(Track_particle_line_objs), NS(Track_particle_until_turn_objs)"]}
{"id": "C33", "title": "Element-by-element tracking only observes", "statement": "Element-by-element tracking leaves the particles in the same state as plain tracking, and the record for element e and turn t holds the state of the particle just before that element in that turn.", "quantifier": "all lattices, configurations and particles", "why_tests_cant": "All lattices and loss points.", "anchors": ["sixtracklib/common/track/track.h: NS(Track_particle_element_by_element_until_turn_objs)"]}
{"id": "C34", "title": "Parallel tracking gives the sequential result", "statement": "Distributing the particles over any number of work-items, in any interleaving, gives the same particles as tracking them one after the other.", "quantifier": "all numbers of work-items, strides and schedules", "why_tests_cant": "Schedules cannot be enumerated.", "anchors": ["sixtracklib/common/track/track_kernel_impl.h: NS(Track_particles_until_turn_kernel_impl)"]}
{"id": "C35", "title": "Apertures keep exactly the particles inside", "statement": "A particle survives an aperture element exactly if it was alive and its coordinates lie inside the documented rectangle, ellipse or rectangle-ellipse intersection; coordinates are never changed.", "quantifier": "all real coordinates and aperture parameters", "why_tests_cant": "Continuum of coordinates.", "anchors": ["sixtracklib/common/be_limit/track.h", "sixtracklib/common/be_limit/be_limit_ellipse.h", "sixtracklib/common/be_limit/be_limit_rect_ellipse.h"]}
{"id": "C36", "title": "Drifts compose", "statement": "Two consecutive drifts of lengths L1 and L2 equal one drift of length L1+L2, for the expanded and the exact drift; momenta and energy are unchanged.", "quantifier": "all real lengths and particle coordinates", "why_tests_cant": "Continuum of coordinates.", "anchors": ["sixtracklib/common/be_drift/track.h: NS(Track_particle_drift), NS(Track_particle_drift_exact)"]}
{"id": "C37", "title": "Shifts and rotations are invertible", "statement": "A shift (rotation) followed by the opposite shift (rotation) restores the particle; rotations preserve distances and compose additively.", "quantifier": "all real parameters and coordinates", "why_tests_cant": "Continuum of coordinates.", "anchors": ["sixtracklib/common/be_xyshift/track.h", "sixtracklib/common/be_srotation/track.h", "sixtracklib/common/be_srotation/be_srotation.h"]}
{"id": "C38", "title": "Multipole kicks are the complex multipole expansion", "statement": "The kick of a thin multipole is minus chi times the real part and plus chi times the imaginary part of the sum of (k_n + i s_n)(x+iy)^n / n!.", "quantifier": "all orders, strengths and coordinates", "why_tests_cant": "Unbounded order.", "anchors": ["sixtracklib/common/be_multipole/track.h: NS(Track_particle_multipole)"]}
{"id": "C39", "title": "Energy changes are additive and keep derived variables consistent", "statement": "Adding an energy dE1 and then dE2 is the same as adding dE1+dE2, and after every change psigma, delta, rpp and rvv satisfy their defining relations.", "quantifier": "all real energies for which the particle keeps moving", "why_tests_cant": "Continuum of values.", "anchors": ["sixtracklib/common/particles.h: NS(Particles_add_to_energy_value), NS(Particles_update_delta_value)"]}
{"id": "C40", "title": "Thin lens maps are symplectic", "statement": "The transverse linearised maps of the drift, thin multipole, dipole edge and rotation preserve the symplectic form (phase space area).", "quantifier": "all parameters and coordinates", "why_tests_cant": "Continuum of values.", "anchors": ["sixtracklib/common/be_drift/track.h", "sixtracklib/common/be_multipole/track.h", "sixtracklib/common/be_dipedge/track.h", "sixtracklib/common/be_srotation/track.h"]}
{"id": "C41", "title": "Tricubic interpolation reproduces the table", "statement": "In every cell the interpolating polynomial takes the tabulated values and derivatives at all eight corners, so the potential and its gradient are continuous across cells.", "quantifier": "all tables and cells", "why_tests_cant": "The 64x64 coefficient matrix must be right in every entry.", "anchors": ["sixtracklib/common/be_tricub/coefficients.h: NS(tricub_construct_coefs)", "sixtracklib/common/be_tricub/track.h"]}
{"id": "C42", "title": "Interpolation passes through the samples", "statement": "Linear and cubic interpolation return the sample values at the sample points; the cubic interpolation has continuous first and second derivatives.", "quantifier": "all sample values and numbers of samples", "why_tests_cant": "Unbounded number of samples; the spline is the solution of a tridiagonal system.", "anchors": ["sixtracklib/common/internal/math_interpol.h: NS(Math_interpol_cubic_prepare_equ), NS(Math_interpol_cubic_y_equ), NS(Math_interpol_linear_y_equ)"]}
{"id": "C43", "title": "Multipole strengths read back as set", "statement": "Setting the normal or skew strength of any order and reading it back gives the value set, and leaves the other orders unchanged.", "quantifier": "all orders, strengths", "why_tests_cant": "Unbounded orders.", "anchors": ["sixtracklib/common/be_multipole/be_multipole.h: NS(Multipole_set_knl_value), NS(Multipole_knl)", "sixtracklib/common/internal/math_factorial.h: NS(Math_factorial), NS(Math_inv_factorial)"]}
{"id": "C44", "title": "Node ids survive printing and parsing", "statement": "Parsing the printed form of a valid node id gives the node id again, and the ordering of node ids is a strict weak order on platform and device.", "quantifier": "all platform and device ids", "why_tests_cant": "Unbounded ids.", "anchors": ["sixtracklib/common/control/node_id.cpp"]}
{"id": "C45", "title": "Kernel configurations are validated", "statement": "Setting the number of work items succeeds exactly if the dimension matches the configuration and all sizes are positive, and reads back as set.", "quantifier": "all dimensions and sizes", "why_tests_cant": "All dimension and size combinations.", "anchors": ["sixtracklib/common/control/kernel_config_base.cpp: KernelConfigBase::setNumWorkItems"]}
{"id": "C46", "title": "Owned buffers are tracked consistently", "statement": "A track-job buffer store that claims ownership of a buffer refers to exactly that buffer, for every history of resets, copies and moves.", "quantifier": "all histories of operations", "why_tests_cant": "Unbounded histories.", "anchors": ["sixtracklib/common/track/track_job_buffer_store.cpp"]}
{"id": "C47", "title": "A monitor knows which turns it holds", "statement": "After the turns 0..n-1 have been tracked, asking a monitor whether a turn is stored answers yes exactly if the record of that turn is in its output.", "quantifier": "all monitors (rolling or not), all turns and all numbers of tracked turns", "why_tests_cant": "The answer depends on start, skip, number of stores and rolling together; the boundary cases cannot be enumerated.", "anchors": ["sixtracklib/common/be_monitor/be_monitor.h: NS(BeamMonitor_has_turn_stored)"]}
{"id": "C48", "title": "RF multipole strengths and phases read back as set", "statement": "Setting the normal or skew strength or phase of any order of an RF multipole, one by one or all together, stores what was given, and leaves everything else unchanged.", "quantifier": "all orders, strengths, phases and memory contents", "why_tests_cant": "Unbounded orders; the loops must touch exactly the right cells.", "anchors": ["sixtracklib/common/be_rfmultipole/be_rfmultipole.h: NS(RFMultipole_set_knl_value), NS(RFMultipole_set_ksl), NS(RFMultipole_set_phase), NS(RFMultipole_phase_end)"]}
{"id": "C49", "title": "Copied elements act like the original and cleared elements do nothing", "statement": "Copying a beam element gives an element that acts on every particle exactly as the original, and a cleared element leaves every particle unchanged (an aperture: accepts every particle within the global limits).", "quantifier": "all elements and all particles", "why_tests_cant": "Continuum of particles and parameters.", "anchors": ["sixtracklib/common/be_multipole/be_multipole.h: NS(Multipole_copy)", "sixtracklib/common/be_rfmultipole/be_rfmultipole.h: NS(RFMultipole_copy)", "sixtracklib/common/be_limit/be_limit_rect_ellipse.h: NS(LimitRectEllipse_copy)", "sixtracklib/common/be_dipedge/be_dipedge.h: NS(DipoleEdge_clear)"]}
{"id": "C50", "title": "The RF multipole generalises cavity and multipole and conserves phase space", "statement": "Without strengths an RF multipole acts as a cavity, at zero frequency, phases and voltage as a thin multipole, and its energy kick belongs to the same potential as its transverse kick (the map is symplectic).", "quantifier": "all orders, strengths, phases and coordinates", "why_tests_cant": "Continuum of values and unbounded order.", "anchors": ["sixtracklib/common/be_rfmultipole/track.h: NS(Track_particle_rf_multipole)", "sixtracklib/common/be_cavity/track.h: NS(Track_particle_cavity)"]}
{"id": "C51", "title": "A buffer file read back gives the same objects", "statement": "Writing a buffer to a file writes exactly the bytes of its managed buffer; making a buffer from a file that was written (plainly or with a normalised base address) gives, unless there is no memory, a buffer with the same objects: types, sizes, fields and array data.", "quantifier": "all buffers reachable by the buffer calls, all memories and all results of malloc", "why_tests_cant": "The address at which the file is read back relative to the stored one is chosen by malloc; sizes and contents are unbounded.", "anchors": ["sixtracklib/common/buffer/buffer.c: NS(Buffer_write_to_fp)", "sixtracklib/common/buffer/buffer.c: NS(Buffer_new_from_file)", "sixtracklib/common/buffer/buffer.c: NS(Buffer_write_to_file_normalized_addr)"]}
{"id": "C52", "title": "Reading a file into a buffer replaces its objects or reports a failure", "statement": "Reading a file into an existing buffer returns true exactly if the buffer then holds the objects of the file, and otherwise leaves the buffer as it was.", "quantifier": "all reachable source and destination buffers, all results of malloc", "why_tests_cant": "Failures of malloc and addresses are not under control of a test.", "anchors": ["sixtracklib/common/buffer/buffer.c: NS(Buffer_read_from_file)"]}
{"id": "C53", "title": "A buffer of given capacities has them", "statement": "A buffer made for given numbers of objects, slots, data pointers and garbage ranges is empty and has exactly these capacities, unless there is no memory.", "quantifier": "all capacities", "why_tests_cant": "Unbounded capacities.", "anchors": ["sixtracklib/common/buffer/buffer.c: NS(Buffer_new_detailed)"]}
{"id": "C54", "title": "A buffer on or from existing data has the objects of the data", "statement": "A buffer made on the bytes of another buffer has the same objects; a buffer initialised from the data of another one has the same objects in its own memory and does not depend on the other one; a failure is reported and leaves the buffer usable.", "quantifier": "all reachable buffers, all places of the bytes, all results of malloc", "why_tests_cant": "Addresses and sizes are unbounded; use after release is not visible in an ordinary test.", "anchors": ["sixtracklib/common/buffer/buffer.c: NS(Buffer_new_on_data)", "sixtracklib/common/buffer/buffer_generic.h: NS(Buffer_init_from_data)"]}
{"id": "C55", "title": "A buffer on existing data can be extended within its memory and cleared", "statement": "Objects can be added to a buffer which was made on existing data exactly as long as the spare capacity suffices, without touching memory beside it, the earlier objects are kept, and what its flags allow (clearing, resetting) is done.", "quantifier": "all histories of such buffers", "why_tests_cant": "Unbounded histories.", "anchors": ["sixtracklib/common/buffer/buffer.c: NS(Buffer_new_on_data)", "sixtracklib/common/buffer.h: NS(Buffer_add_object)", "sixtracklib/common/buffer.h: NS(Buffer_clear)"]}
{"id": "C56", "title": "The boost of the six-dimensional beam-beam interaction is undone by its inverse and conformally symplectic", "statement": "For parameters belonging to angles with positive cosine, and a particle flying forward before and after, BeamBeam6D_boost is defined, BeamBeam6D_inv_boost undoes it and is undone by it, and the boost multiplies the symplectic form by 1/cos(phi), its inverse by cos(phi).", "quantifier": "all boost parameters, all coordinates with positive longitudinal momentum in both frames", "why_tests_cant": "Identities over the reals and a statement about derivatives.", "anchors": ["sixtracklib/common/be_beamfields/be_beamfields.h: BeamBeam6D_boost", "sixtracklib/common/be_beamfields/be_beamfields.h: BeamBeam6D_inv_boost"]}
{"id": "C57", "title": "The principal axes of the strong beam and their derivatives are right", "statement": "BeamBeam6D_propagate_Sigma_matrix gives the rotation which makes the transverse matrix of the beam size at distance S diagonal, its principal values, and the derivatives of all of them by S, also where the two principal values agree; with a threshold in (0, 1/2] it never divides by zero or takes the root of a negative number.", "quantifier": "all matrices, all distances, all thresholds", "why_tests_cant": "Statements about derivatives and about measure-zero singular cases.", "anchors": ["sixtracklib/common/be_beamfields/be_beamfields.h: BeamBeam6D_propagate_Sigma_matrix"]}
{"id": "C58", "title": "The transverse field of a Gaussian beam solves Maxwell's equations for its density", "statement": "With the exact complex error function, get_Ex_Ey_Gx_Gy_gauss gives for different positive sizes a field which is defined everywhere, bounded, has the symmetries of the beam, no curl, and the Gaussian density divided by epsilon_0 as divergence; Gx and Gy are half of the derivatives of the field and, with the squares of the sizes as further coordinates, the four functions have a symmetric matrix of derivatives; nearly equal sizes give the field of a round beam of the mean size; an approximation of the error function with error eps changes the field by at most eps/(epsilon_0 sqrt(2 pi |sx^2-sy^2|)).", "quantifier": "all positive sizes, all points of the plane, all curves through them", "why_tests_cant": "Partial differential equations at every point, with a transcendental function of a complex argument.", "anchors": ["sixtracklib/common/be_beamfields/gauss_fields.h: get_transv_field_gauss_ellip", "sixtracklib/common/be_beamfields/gauss_fields.h: get_transv_field_gauss_round", "sixtracklib/common/be_beamfields/gauss_fields.h: get_Ex_Ey_Gx_Gy_gauss"]}
{"id": "C60", "title": "The six-dimensional beam-beam interaction is a symplectic map", "statement": "Track_particle_beam_beam_6d with the exact complex error function is defined and preserves the symplectic form of the canonical variables (x, px, y, py, sigma, psigma) for every particle which stays inside the branches of the code; each slice leaves the position at its collision point unchanged and is symplectic by itself; a strong beam without charge or without slices leaves only the subtraction of the dipolar kick; a disabled element does nothing.", "quantifier": "all boosts, all numbers of slices, all matrices of the beam size away from the thresholds, all particles which fly forward", "why_tests_cant": "A statement about the derivative of a map with a transcendental function of a complex argument at every point of phase space.", "anchors": ["sixtracklib/common/be_beamfields/track.h: Track_particle_beam_beam_6d", "sixtracklib/common/be_beamfields/be_beamfields.h: BeamBeam6D_propagate_Sigma_matrix"]}
{"id": "C59", "title": "cerrf approximates the complex error function everywhere", "statement": "With exact real arithmetic cerrf is defined for every argument (no array index out of range, no unset entry, no division by zero), has the symmetries w(-conj z) = conj w(z) and w(-z) = 2 exp(-z^2) - w(z), is exp(-x^2) in its real part on the real axis and real on the imaginary axis, and differs from the exact complex error function by at most 1e-8.", "quantifier": "all real x and y", "why_tests_cant": "The number of terms and the starting point of the continued fraction depend on the argument through floor functions; the error must be bounded at every point of the plane.", "anchors": ["sixtracklib/common/be_beamfields/faddeeva_cern.h: cerrf"]}
{"id": "C61", "title": "Kinds of elements can be switched off by the configuration", "statement": "A beam-beam, space-charge or TriCub element whose setting is `enabled` applies its map; with `skip` it leaves the particle as it is and succeeds; with `disabled` it fails and leaves the particle as it is; the settings of other kinds have no influence.", "quantifier": "all configurations, all switchable elements, all particles", "why_tests_cant": "Each setting is a separate build; the combination of all settings and kinds is not built.", "anchors": ["sixtracklib/common/track/track.h: Track_particle_beam_element_obj_dispatcher_aperture_check"]}
{"id": "C62", "title": "The q-Gaussian profile is a probability density with the rms length that was set", "statement": "For every parameter q < 3 the normalising constant is computed and the profile is a non-negative, unimodal function with integral one, which vanishes exactly outside the reported support; its rms length is the bunch length of the element.", "quantifier": "all parameters q < 3, all bunch lengths > 0, all positions, exact real arithmetic", "why_tests_cant": "Normalisation is an integral over the whole line for a continuum of parameters; the tests compare sampled values with the same formulas.", "anchors": ["sixtracklib/common/internal/math_qgauss.h: Math_q_gauss, Math_q_gauss_cq, Math_q_gauss_exp_q, Math_q_gauss_min_support, Math_q_gauss_max_support, Math_q_gauss_sqrt_beta_from_gauss_sigma", "sixtracklib/common/be_beamfields/be_beamfields.h: SCQGaussProfile_set_q_param"]}
{"id": "C63", "title": "The integer power function computes powers", "statement": "pow_int_exp(b, n) is b to the n for every integer n.", "quantifier": "all bases, all 64-bit exponents", "why_tests_cant": "2^64 exponents; the function is right for a sparse set of small exponents.", "anchors": ["sixtracklib/common/internal/math_functions.h: pow_int_exp"]}
{"id": "C64", "title": "The transverse field elements kick along the field of the beam and conserve phase space", "statement": "The beam-beam and space-charge elements change nothing but the transverse momenta, by the field of the Gaussian beam times the factor of the velocity of the particle and of the line density at the particle; a switched-off element does nothing; the maps are symplectic in the transverse coordinates and in all six.", "quantifier": "all elements with different (or equal) sizes, all particles that move forward, exact real arithmetic, exact complex error function", "why_tests_cant": "A statement on derivatives at every point of a six-dimensional space; the tests compare with the same formulas in Python.", "anchors": ["sixtracklib/common/be_beamfields/track.h: Track_particle_beam_beam_4d, Track_particle_space_charge_coasting, Track_particle_space_charge_qgaussian_profile, Track_particle_space_charge_interpolated_profile"]}
{"id": "C65", "title": "Lines of beam elements are copied completely and with the predicted capacity", "statement": "Copying a range of beam elements into a buffer appends all of them, in their order and with their types, or reports a failure; the capacity predicted for the range is what the copies need, so that a buffer with this capacity takes the line without growing; making new elements for a range and copying between the objects of two ranges goes through the whole range and reports success exactly if every step succeeds.", "quantifier": "all buffers, all lines of elements of all types, all allocators", "why_tests_cant": "The dispatch has twenty branches per function and the results depend on the combination of types in a line; branches with an inverted status look like a success for the last element of a line.", "anchors": ["sixtracklib/common/beam_elements.h: BeamElements_copy_to_buffer, BeamElements_copy_single_to_buffer, BeamElements_add_new_to_buffer, BeamElements_copy_line, BeamElements_copy_object, BeamElements_calc_buffer_parameters_for_line, BeamElements_is_beam_element_obj"]}
{"id": "C66", "title": "A line density profile stores its table and returns the interpolated density", "statement": "A line density profile object holds samples at equidistant positions from z0 in steps of dz. After a successful preparation the density meets every sample, follows the chosen method between the samples and is zero outside the table; adding a profile to a buffer stores all arguments; a copy has the same density as its source; asking for the room a profile needs has no side effects.", "quantifier": "all profiles with separate arrays, all memories, all positions, exact arithmetic", "why_tests_cant": "Densities are real functions of the position and depend on the contents of cells behind the last sample; the tests evaluate a few positions well inside the table.", "anchors": ["sixtracklib/common/be_beamfields/be_beamfields.h: LineDensityProfileData_interpolate_value, LineDensityProfileData_interpolate_1st_derivative, LineDensityProfileData_interpolate_2nd_derivative, LineDensityProfileData_prepare_interpolation, LineDensityProfileData_copy, LineDensityProfileData_z_max", "sixtracklib/common/be_beamfields/be_beamfields.c: LineDensityProfileData_new, LineDensityProfileData_add, LineDensityProfileData_can_be_added"]}
{"id": "C67", "title": "Copies of beam-beam and space-charge elements equal their sources", "statement": "Copying a beam-beam or space-charge element onto another one makes the destination equal to the source, including all data behind its address, changes nothing else and refuses data that do not fit; clearing an element sets every member.", "quantifier": "all elements with separate data, all memories", "why_tests_cant": "The slices of a 6D element lie behind the struct that is assigned; a test that compares the members of the struct does not see that they were left out, and a cleared element on the stack has a member whose value depends on earlier calls.", "anchors": ["sixtracklib/common/be_beamfields/be_beamfields.h: BeamBeam4D_copy, BeamBeam6D_copy, BeamBeam4D_set_data_size, SCCoasting_copy, SCCoasting_clear, SCQGaussProfile_copy, SCQGaussProfile_clear, SCInterpolatedProfile_copy, SCInterpolatedProfile_clear"]}
{"id": "C68", "title": "Remapping accepts only consistent buffers", "statement": "Remapping bytes whose header and section headers are in order but whose records are arbitrary is always defined; it changes nothing outside the buffer, and it reports success only if every address in the records lies in the used slots after it has been moved, the objects follow one another without overlap and end inside the slots, and every data pointer and what it points at lies in the slots.", "quantifier": "all memories with a well-formed header, all record contents, all pairs of addresses", "why_tests_cant": "The tests remap buffers that the library wrote itself; the records of a damaged or foreign file can hold any 64-bit values, including sizes that wrap around.", "anchors": ["sixtracklib/common/buffer/managed_buffer_remap.h: ManagedBuffer_remap, ManagedBuffer_remap_section_objects, ManagedBuffer_remap_section_dataptrs, ManagedBuffer_remap_section_garbage"]}
{"id": "C69", "title": "String objects hold the string that was assigned", "statement": "A string object holds exactly the characters that were assigned, appended or cleared, followed by zeros; strings that do not fit are refused without a change; length, maximal and available length agree with the characters; a string added to a buffer is found there with its length, and no other object of the buffer is changed by these functions; the predicted number of slots is the number used.", "quantifier": "all strings without zeros, all capacities, all buffer histories", "why_tests_cant": "The cases that go wrong are at the limit (a string of exactly the capacity, a capacity of one, more than 1023 characters, no terminating zero), and a string without a terminating zero only shows when the memory behind it is read.", "anchors": ["sixtracklib/common/buffer/buffer_string_object.h: BufferStringObj_get_length, BufferStringObj_assign_cstring, BufferStringObj_append_cstring, BufferStringObj_clear, BufferStringObj_sync_length, BufferStringObj_new, BufferStringObj_add, BufferStringObj_add_copy, BufferStringObj_new_from_cstring"]}
{"id": "C70", "title": "Shifting the addresses of a buffer shifts all of them", "statement": "Applying an address offset to a buffer turns it into exactly the bytes it would have at the other address: every address in the header, the object records, the data pointers, what they point at and the garbage ranges is shifted, sizes and contents stay as they are, and nothing outside the buffer changes.", "quantifier": "all buffers in order (any number of slots, objects, pointers and garbage ranges), all pairs of addresses", "why_tests_cant": "No test makes garbage ranges before an address shift, and one address left behind or one size overwritten only shows when the file is read by a program that uses that section.", "anchors": ["sixtracklib/common/buffer/managed_buffer_remap.h: ManagedBuffer_apply_addr_offset"]}
{"id": "C71", "title": "Preparing the output of a run makes room for every record", "statement": "Preparing the output buffer appends one object with a record for every particle, element and turn of the element-by-element output, then one object per active monitor with a record for every particle and store, and hands back the offsets of the two groups; every record index of a configuration for the same ranges lies inside its object; the range of element ids covers all elements; the output flags and the predicted sizes agree with what is prepared.", "quantifier": "all lattices, all particle, element and turn ranges whose record numbers are representable, all output buffers", "why_tests_cant": "Tests use one lattice with monitors starting in the first turn and no other objects between the elements; the numbers only go wrong for other starting turns and mixed buffers, and then records are written past the end of an object.", "anchors": ["sixtracklib/common/output/output_buffer.c: OutputBuffer_required_for_tracking_detailed, OutputBuffer_prepare_detailed, OutputBuffer_calculate_output_buffer_params_detailed", "sixtracklib/common/output/elem_by_elem_output_buffer.c: ElemByElemConfig_prepare_output_buffer_detailed, ElemByElemConfig_calculate_output_buffer_params_detailed", "sixtracklib/common/output/elem_by_elem_output_buffer.h: ElemByElemConfig_find_min_max_element_id_from_buffer"]}
{"id": "C72", "title": "A reset leaves a track job with output that is ready", "statement": "Resetting a track job with usable particles, elements and output buffer succeeds; afterwards the element-by-element configuration refers to an object of the output buffer in which every particle, element and turn up to the requested one has its own record, every active monitor refers to its own object with room for all its records and knows the particle range, objects that were in the caller's buffer stay in front and other buffers are untouched; if no output is requested none is left over from before, and the defaults set in the job are used.", "quantifier": "all jobs, lattices, ranges whose record numbers are representable, output buffers and last turns", "why_tests_cant": "Tests reset a fresh job once, with monitors starting in the first turn; failures need a lattice whose monitors start before the particles' first turn, a second reset with the same buffer, or defaults changed before a reset.", "anchors": ["sixtracklib/common/track/track_job_base.cpp: reset, doReset, doClearOutputStructuresBaseImpl, doPrepareBeamElementsStructures, doPrepareOutputStructures, doAssignOutputBufferToBeamMonitors, doAssignOutputBufferToElemByElemConfig"]}
{"id": "C73", "title": "A track job can be given another output buffer", "statement": "Giving a job with output another output buffer succeeds, reports success, and leaves the element-by-element output up to the same turn and all active monitors ready in the new buffer, behind the objects that were in it.", "quantifier": "all jobs with output, all lattices, ranges and output buffers", "why_tests_cant": "Tests assign a buffer to a job whose particles start in turn 0 through the C interface; for particles that start later the last turns are lost or the call fails, and the C++ interface reports the opposite status.", "anchors": ["sixtracklib/common/track/track_job_base.cpp: assignOutputBuffer, doAssignNewOutputBuffer, numElemByElemTurns"]}
{"id": "C74", "title": "A track job works on the particle sets it was asked for", "statement": "After a reset with a list of set indices the job holds exactly those sets, each once and in buffer order, with the offsets, numbers of particles and attribute ranges of these sets; an index that is no particle set is refused; choosing one set of the current particles buffer does the same.", "quantifier": "all particles buffers, all lists of indices, all kinds of output buffers", "why_tests_cant": "Tests choose set 0 or all sets in order; unsorted or repeated indices, indices of other objects, the default choice and selectParticleSet on a job with C++ buffers are not exercised.", "anchors": ["sixtracklib/common/track/track_job_base.hpp: doSetParticleSetIndices", "sixtracklib/common/track/track_job_base.cpp: reset, selectParticleSet, doInitDefaultParticleSetIndices, doPrepareParticlesStructures, numParticlesInSet", "sixtracklib/common/particles.h: Particles_find_min_max_attributes_of_particles_set_on_managed_buffer"]}
{"id": "C75", "title": "Stored particle addresses lead to the particles", "statement": "The address buffer prepared for a particles buffer has a record for every object; storing the addresses succeeds and every record restores exactly the arrays of its set; moving a record moves all addresses alike and can be undone; comparing finds equal exactly the equal records; a cleared record describes no particles.", "quantifier": "all particles buffers, records, offsets and patterns of failed allocations", "why_tests_cant": "A test compares a few of the 21 addresses for one set; saturated, overflowing and extreme offsets, cleared records and foreign objects are not tried.", "anchors": ["sixtracklib/common/particles/particles_addr.h: ParticlesAddr_assign_from_particles, ParticlesAddr_assign_to_particles, ParticlesAddr_remap_addresses, ParticlesAddr_compare_values, Particles_managed_buffer_store_all_addresses, ParticlesAddr_buffer_clear_all", "sixtracklib/common/particles/particles_addr.c: ParticlesAddr_prepare_buffer_based_on_particles_buffer"]}
{"id": "C76", "title": "A CPU job tracks its particle sets", "statement": "trackUntil, trackLine and trackElemByElem of the CPU job track every particle of the chosen sets exactly as tracking that particle alone does, leave every other set alone, leave in the monitor records what each particle's own tracking writes, and report success exactly if every particle was tracked with success; without sets or output nothing is done and failure is reported.", "quantifier": "all lattices and element maps, numbers of turns, lines, particles buffers and choices of sets", "why_tests_cant": "Tests compare one job with one reference run; several sets with shared records, statuses joined over many particles, sets that are none and turn numbers beyond the signed range are not tried.", "anchors": ["sixtracklib/common/track/track_job_cpu.cpp: trackUntil, trackElemByElem, trackLine", "sixtracklib/common/track/track_kernel_impl.h: Track_particles_until_turn_kernel_impl, Track_particles_elem_by_elem_until_turn_kernel_impl, Track_particles_line_kernel_impl"]}
{"id": "C77", "title": "The debug kernels for tracking do the same and say what is wrong", "statement": "With legal arguments a debug kernel leaves the memory and status of the plain kernel, and its register holds that status and no error flag; with illegal arguments nothing is touched and the register names exactly what is wrong; the work-items of a launch together track every particle once and the collected register tells the status of the whole.", "quantifier": "all arguments, lattices, buffers, numbers and orders of work-items", "why_tests_cant": "The flags of illegal arguments and the bounds of lines, set and configuration indices are never tested; the collected register depends on all work-items.", "anchors": ["sixtracklib/common/track/track_kernel_impl.h: Track_particles_until_turn_debug_kernel_impl, Track_particles_elem_by_elem_until_turn_debug_kernel_impl, Track_particles_line_debug_kernel_impl", "sixtracklib/cuda/cuda_tools.h: Cuda_collect_status_flag_value", "sixtracklib/opencl/internal/status_flag.h: OpenCl1x_collect_status_flag_value"]}
{"id": "C78", "title": "The threads of a CUDA launch are numbered", "statement": "Every thread of a launch gets a number below the number of threads, every such number belongs to exactly one thread, and the number of threads used as stride is that of the launch, so that each particle is taken by exactly one thread.", "quantifier": "all grids and blocks with fewer than 2^32 blocks and 2^32 threads per block", "why_tests_cant": "Tests launch one-dimensional grids; two- and three-dimensional launches and launches of 2^32 threads are not tried.", "anchors": ["sixtracklib/cuda/cuda_tools.h: Cuda_get_1d_thread_id_in_kernel, Cuda_get_1d_thread_stride_in_kernel, Cuda_get_total_num_threads_in_kernel"]}
{"id": "C79", "title": "A controller of nodes keeps its nodes, the default and the selected node", "statement": "After any calls every node has its position as index and a valid id of its own, is found by its ids and by its text, and is listed; a node without ids gets new ones. Selecting, changing and unselecting succeed exactly when they should, and then the index, the text and the flags tell the selected (and the default) node; a failed call changes nothing; the status tells what happened; clearing leaves nothing behind.", "quantifier": "all sequences of calls, all nodes with ids that are not negative, all flags of the controller, all devices", "why_tests_cant": "The tests use the nodes of the machine they run on: one or a few devices with one-digit ids; changes between devices, long ids, flags of nodes that are not selected any more and a cleared controller are not looked at.", "anchors": ["sixtracklib/common/control/node_controller_base.cpp: doAppendAvailableNodeInfoBase, doFindAvailableNodesIndex, doSetDefaultNodeIndex, selectNode, doChangeSelectedNode, doUnselectNode, unselectNode, doRemoveNodeFromSelection, doSelectNodeNodeControllerBaseImpl, doClear, availableNodeIndices", "sixtracklib/cuda/control/controller.cpp: doSelectNodeCudaImpl, doChangeSelectedNode"]}
{"id": "C80", "title": "The optimised tracking kernels do what the plain ones do", "statement": "A particle copied to flat arrays or back arrives whole and leaves the other particles alone; a copy of a particle that does not exist is refused. For every object of the buffer the optimised kernels leave the same status, particles, output and debug register as the plain kernels; for a single work-item every particle of the set is tracked.", "quantifier": "all sets of particles, all lattices of elements given by arbitrary maps, all numbers of turns, all strides and start indices, all arguments of the debug kernels", "why_tests_cant": "The kernels run on GPUs only, and the tests compare one or two particle sets of one lattice; wrong object indices and objects that are no particle sets are never passed.", "anchors": ["sixtracklib/common/track/track_kernel_opt_impl.h: Track_particles_until_turn_opt_kernel_impl, Track_particles_until_turn_opt_debug_kernel_impl, Track_particles_elem_by_elem_until_turn_opt_kernel_impl, Track_particles_line_opt_kernel_impl", "sixtracklib/common/particles.h: Particles_init_from_flat_arrays, Particles_copy_from_generic_addr_data, Particles_copy_to_generic_addr_data"]}
{"id": "C81", "title": "An argument brings data to the device and back", "statement": "The size of an argument never exceeds its capacity and its device memory has as many bytes as the capacity says. Data sent successfully are on the device; if the argument refers to where they came from, receiving writes what the device holds back to that place and to no other, and an unchanged buffer arrives as it was, remapped to its address on the host. Updating regions changes exactly the regions inside the argument.", "quantifier": "all arguments that keep the invariant, all contents of host and device memory, all sizes, all formats of buffers whose remapping keeps the length, all lists of regions", "why_tests_cant": "The tests send one buffer once and receive it again; they never reuse an argument for other data, exhaust device memory, send something that cannot be remapped, or update with offsets near the end of the range of numbers.", "anchors": ["sixtracklib/common/control/argument_base.cpp: send, receive, updateRegions, doSetPtrCBuffer, doSetBufferRef", "sixtracklib/cuda/control/argument.cpp: CudaArgument, doReserveArgumentBufferCudaBaseImpl", "sixtracklib/common/control/controller_base.cpp: send, receive", "sixtracklib/cuda/control/controller.cpp: doSend, doReceive, doRemapCObjectsBufferArg"]}
{"id": "C82", "title": "The id of a kernel leads to that kernel until it is removed", "statement": "Adding a kernel to a controller gives a new id; whatever is done later, that id leads to the same kernel until the kernel is removed and to none afterwards. The number of kernels is the number of ids that lead to one, and a name leads to the kernel of that name with the lowest id. The debug mode can be switched exactly if the controller has the kernel for remapping in the new mode.", "quantifier": "all controllers, all sequences of adding, removing, clearing, setting ids and switching the debug mode, all names", "why_tests_cant": "The tests use controllers with the handful of kernels set up at selection time; they never remove a kernel, give one name twice, select a node again, or ask a controller for its debug mode before the id of the debug kernel has been set.", "anchors": ["sixtracklib/common/control/controller_base.cpp: doAppendKernelConfig, doRemoveKernelConfig, doFindKernelConfigByName, ptrKernelConfigBase, doSwitchDebugMode, readyForRemap, doClear", "sixtracklib/common/control/arch_base.cpp: enableDebugMode, disableDebugMode", "sixtracklib/cuda/control/controller.cpp: doSelectNodeCudaImpl"]}
{"id": "C83", "title": "The result of a comparison says which of two numbers or ranges is larger", "statement": "Comparing two numbers gives zero exactly if they are equal and otherwise a result whose sign says which one is larger; exchanging the numbers changes the sign, and the relation is transitive. Two ranges compare as their first pair of numbers that differ. With an absolute tolerance the result is zero exactly if the difference is at most the tolerance, a larger tolerance accepts more, and a tolerance of zero gives the exact comparison. The functions for C and the templates for C++ agree.", "quantifier": "all numbers including the infinities and NaN, all ranges, all tolerances, every rounding that keeps order, sign and representable numbers and does not round a difference to zero", "why_tests_cant": "The functions are what the tests decide with; no test calls them with NaN, with infinities, with a relative tolerance in both orders, or calls the C++ template and the C function on the same numbers.", "anchors": ["sixtracklib/common/internal/type_comparison_helpers.hpp: Type_comp_less, Type_comp_more, Type_comp_is_close, Type_value_comp_result, Type_value_comp_result_with_tolerances, Type_value_comp_result_for_range, Type_value_comp_result_int64"]}
{"id": "C84", "title": "Comparisons of particles say whether the particles agree", "statement": "The exact comparison of two sets of particles gives zero exactly if all 21 attributes of all particles are the same, and otherwise its sign says which set is larger. The comparison with a threshold gives zero exactly if no real attribute differs by more than the threshold and the integers are the same; it is symmetric, accepts what the exact comparison accepts, and a larger threshold accepts more; the index it stores is that of the first particle out of bounds. The search for the largest difference finds the largest one and the first particle with it, for a set and for the sets of a buffer, and writes nothing but the result.", "quantifier": "all numbers of particles, all contents of the arrays including NaN and infinities, all thresholds, every rounding that keeps order, sign and representable numbers", "why_tests_cant": "These functions are the oracle of the tests: a wrong verdict of theirs makes a test pass that ought to fail. No test compares particles with NaN, empty sets, or looks at what the search for the largest difference does to its arguments.", "anchors": ["tests/sixtracklib/testlib/common/particles/particles.h: Particles_compare_values, Particles_compare_values_with_treshold, Particles_compare_real_sequences_with_treshold", "tests/sixtracklib/testlib/common/particles/particles.c: Particles_get_max_difference, Particles_print_max_diff, Particles_buffers_compare_values, Particles_buffers_get_max_difference"]}
{"id": "C85", "title": "Comparisons of beam elements and lines say whether they agree", "statement": "The exact comparison of two beam elements gives zero exactly if they are of the same kind and have the same attributes; with a threshold it gives zero exactly if the integers are the same and no number differs by more than the threshold. Both end without undefined behaviour, change sign if the elements are exchanged, and a positive result means that the first number that differs is larger on the left. Two lines agree exactly if they have the same number of elements and all elements agree; otherwise the result is that of the first pair that differs.", "quantifier": "all 18 kinds of elements, all attributes including arrays of any length, NaN and infinities, all thresholds, all lines, every rounding that keeps order, sign and representable numbers", "why_tests_cant": "These functions are the oracle of the tests on elements. A kind or an attribute that they forget, a sign that is exchanged or a NaN that agrees with everything is noticed by no test that relies on them.", "anchors": ["tests/sixtracklib/testlib/common/beam_elements/beam_elements.h: BeamElements_compare_objects, BeamElements_compare_objects_with_treshold, BeamElements_compare_lines, BeamElements_compare_lines_with_treshold", "tests/sixtracklib/testlib/common/beam_elements/be_beamfields.h: BeamBeam_compare_values_generic, BeamBeam_compare_values_generic_with_treshold, SCCoasting_compare_values, SCQGaussProfile_compare_values, LineDensityProfileData_compare_values, SCInterpolatedProfile_compare_values", "tests/sixtracklib/testlib/common/compare.h: TestLibCompare_real_attribute_with_treshold"]}
{"id": "C86", "title": "A job keeps the address assignments it is given, until they are removed", "statement": "An assignment that is added to a track job is found from then on, once, at the end of those for its pair of buffers; adding it again changes nothing. Removing it makes it disappear and leaves all others as they are. The pairs of buffers a job lists are sorted, without repetition, and exactly those for which there are assignments; the total is the sum over the pairs. Assigning all addresses puts the address of every source at its destination and changes nothing else; it reports a failure if a buffer is missing.", "quantifier": "all sequences of additions and removals, all items, all numbers of items that fit without growth, all contents of the buffers", "why_tests_cant": "The tests use a handful of items with few pairs of buffers; removal of one of several items of the same pair, with and without room in the buffer of items, and histories of additions and removals in any order are not tested.", "anchors": ["sixtracklib/common/track/track_job_base.cpp:830-1189", "sixtracklib/common/track/track_job_base.cpp:1575-1658", "sixtracklib/common/track/track_job_base.cpp:2854-3091", "sixtracklib/common/internal/track_job_base.cpp:771-1144", "sixtracklib/common/internal/track_job_base.cpp:2551-2793"]}
{"id": "C87", "title": "A job gives every stored buffer an id which leads to it until it is removed", "statement": "A buffer that is stored in a track job gets an id that has not been in use; the id leads to the buffer until it is removed, whatever else is added or removed. The number of stored buffers is the number of ids that lead to a buffer. Buffers the job owns exist as long as they are stored and are deleted once, when they are removed; others are left alone. On a device job the id also leads to the argument that was made for the buffer, and pushing and collecting use just these two. Operations with an id that leads to no buffer fail and change nothing.", "quantifier": "all sequences of additions (all ways to hand over a buffer), removals, reservations and clears, on the host and on devices", "why_tests_cant": "The tests add one or two buffers and remove them again; what happens to other ids after removals, with null pointers, with ids that were never given out, and with the device arguments in all these orders is not tested.", "anchors": ["sixtracklib/common/track/track_job_base.cpp:1192-1322", "sixtracklib/common/track/track_job_base.cpp:1541-1573", "sixtracklib/common/track/track_job_base.cpp:2797-2852", "sixtracklib/common/internal/track_job_base.cpp:2484-2549", "sixtracklib/cuda/track/track_job.cpp:2116-2240", "sixtracklib/opencl/internal/track_job_cl.cpp:1171-1310"]}
{"id": "C88", "title": "A copied, assigned or moved track job is the same job with its own buffers", "statement": "A job that has been copied from, assigned or moved from another one has all members of that job. Buffers which the other job owns are copied with their contents (or handed over, by a move), so that neither job uses a buffer the other one owns: each can be destroyed and leaves the other as it was, every buffer is deleted once and none is left behind. Buffers which belong to the user are shared. A job that has been moved from owns nothing and is like a new one.", "quantifier": "all jobs with whatever output, stored and address buffers they own or borrow, both TrackJobBaseNew and TrackJobBase, all four operations and destruction", "why_tests_cant": "No test copies, assigns or moves a job; the functions are only reached through the defaulted members of the derived classes. A dangling pointer or a missing member only shows much later, when the first job has been destroyed.", "anchors": ["sixtracklib/common/track/track_job_base.cpp:1779-2153", "sixtracklib/common/track/track_job_base.cpp:3454-3521", "sixtracklib/common/internal/track_job_base.cpp:1548-1840", "sixtracklib/common/internal/track_job_base.cpp:3198-3243", "sixtracklib/common/buffer.hpp:660-706"]}
{"id": "C89", "title": "Making or resetting the older track job gives a job for the asked particle sets, whatever it was before", "statement": "After a TrackJobBase has been made or reset with a list of indices, it holds exactly the asked particle sets of the buffer, each once, with their numbers of particles. If the sets have particles and the lattice is usable the reset succeeds; then the ranges of ids and turns are those of the asked particles, the element-by-element output and the monitors are ready if they are required, and what is in an output buffer of the caller stays. Nothing of this depends on what the job was before. An index which names no particle set is refused, selecting another set works for C and C++ buffers alike, and what does not belong to the replaced buffers stays.", "quantifier": "all jobs in any state, all particles buffers with sets and other objects, all lists of indices, all lattices, output buffers and turns; all constructors of TrackJobCpu", "why_tests_cant": "The tests make jobs with set 0 of well-formed buffers, and reset them once. Indices of other sets in the short constructors, indices that name nothing, stored buffers and C++ buffers in selectParticleSet are not tried.", "anchors": ["sixtracklib/common/internal/track_job_base.h:894-1114", "sixtracklib/common/internal/track_job_base.cpp:310-468", "sixtracklib/common/internal/track_job_base.cpp:1921-2273", "sixtracklib/common/internal/track_job_base.cpp:2373-2437", "sixtracklib/common/internal/track_job_base.cpp:3198-3243", "sixtracklib/common/internal/track_job_cpu.cpp:57-276"]}
{"id": "C90", "title": "The programs and kernels of an OpenCL context stay consistent, and a node is selected once, with all programs compiled", "statement": "Whatever is called on a ClContextBase, its lists agree: every kernel belongs to a compiled program which lists it, no program has two kernels of the same name, and without a selected node there are no kernels. The id of a program or kernel keeps its meaning until the context is cleared. Adding, compiling and enabling succeed exactly under the documented conditions; a node is found by its id; a selection succeeds iff no node is selected, the node exists and all programs can be built, and then the kernel for remapping is ready with its arguments. A selection that fails leaves no node selected, enabling a kernel twice gives its id, setting a flag or a directory changes it, a missing program file is reported, and a context made through the C interface is on its node.", "quantifier": "all contexts and all sequences of calls, all sources, options, files and names, all lists of nodes, all outcomes of building programs", "why_tests_cant": "The tests need an OpenCL device, add one or two programs and enable a few kernels. Programs that cannot be built, missing files, enabling a kernel twice, setting a flag again, the debug mode and the C functions without an id are not tried.", "anchors": ["sixtracklib/opencl/internal/base_context.h:928-1125", "sixtracklib/opencl/internal/base_context.cpp:54-448", "sixtracklib/opencl/internal/base_context.cpp:496-800", "sixtracklib/opencl/internal/base_context.cpp:881-1278", "sixtracklib/opencl/internal/base_context.cpp:1350-1564", "sixtracklib/opencl/internal/base_context.cpp:2000-2105", "sixtracklib/opencl/internal/base_context.cpp:2190-2350", "sixtracklib/opencl/internal/base_context.cpp:2855-3180", "sixtracklib/opencl/internal/base_context.cpp:3557-3617"]}
{"id": "C91", "title": "Arguments, launches, times and status flags of the kernels of an OpenCL context are those asked for", "statement": "Assigning an argument of a kernel records its type and sets it in the OpenCL kernel, and leaves everything else; a bad kernel or argument is reported; asking for a ClArgument gives a ClArgument; resetting arguments resets all of them. A launch takes the least number of work items in whole groups that is enough, which is the number computed beforehand. Count, average, smallest and largest time are those of the launches since the last reset. The status flags read are those on the device, evaluating them is a success iff they are 0, and otherwise gives the status stored in them.", "quantifier": "all contexts with consistent lists, all kernels, indices and arguments, all numbers of work items and sizes of groups, all sequences of times, all values of the status flags", "why_tests_cant": "The tests need an OpenCL device and launch one kernel at a time with small numbers. Bad ids and indices, launches that take no time, numbers near 2^64, resets of value arguments, and flags with a stored status are not tried.", "anchors": ["sixtracklib/opencl/internal/base_context.h:758-774", "sixtracklib/opencl/internal/base_context.h:969-1125", "sixtracklib/opencl/internal/base_context.cpp:807-872", "sixtracklib/opencl/internal/base_context.cpp:1566-1635", "sixtracklib/opencl/internal/base_context.cpp:1661-1998", "sixtracklib/opencl/internal/base_context.cpp:2107-2157"]}
{"id": "C92", "title": "A description of a compute node holds what it was made of, in memory of its own, and is printed in full", "statement": "Making a description of a compute node of an id, an architecture, an optional platform, a name and an optional description gives it copies of these texts in memory of its own; texts it had are freed, and without memory it stays as it is and nothing is lost. No byte outside of the blocks is touched. Freeing it frees its texts once, also if it is called again. Printing it gives a line each for id, architecture, platform and name; printing to an array gives this text, or a failure if it does not fit.", "quantifier": "all heaps, all descriptions whose texts have blocks of their own, all texts and lengths, all patterns of failing allocations, all arrays", "why_tests_cant": "No test makes a description; the tests only print those OpenCL reports. Overflows of heap blocks by a few bytes usually go unnoticed, and failing allocations do not happen in tests.", "anchors": ["sixtracklib/common/context/compute_arch.h:135-143", "sixtracklib/common/context/compute_arch.h:394-476", "sixtracklib/common/context/compute_arch.c:339-435", "sixtracklib/common/context/compute_arch.c:437-504", "sixtracklib/common/context/compute_arch.c:508-634"]}
{"id": "C93", "title": "The OpenCL nodes given out are those the environment allows, each with its id and its description", "statement": "A list of ids in the environment variable, separated by commas or semicolons and with or without an architecture, allows just the nodes with these ids; without the variable, or with 'all', all nodes are available, and with 'first' the first. The nodes given out are the devices of all platforms in their order, as far as they are allowed, each with the number of its platform and of the device and a description with the names of device and platform. Descriptions that are not given out are freed once, and those given out are not freed. Copying the ids gives those behind the skipped ones, at most as many as there is room for, and the printed list has the text of each description.", "quantifier": "all environments, names of the variable, platforms and devices with their names, all heaps and patterns of failing allocations, all capacities", "why_tests_cant": "Tests see the one OpenCL installation and the one environment of the machine they run on; platforms without devices, long names and failing allocations do not occur there, and a leaked or doubly freed description goes unnoticed.", "anchors": ["sixtracklib/opencl/internal/base_context.cpp:2392-2467", "sixtracklib/opencl/internal/base_context.cpp:2469-2613", "sixtracklib/opencl/internal/base_context.cpp:2615-2812", "sixtracklib/opencl/internal/base_context.h:297-349", "sixtracklib/opencl/internal/base_context.h:380-440"]}
{"id": "C94", "title": "Buffers and raw memory survive the way to an OpenCL device and back", "statement": "Writing a buffer that fits into an OpenCL argument puts its image for the address on the device at the begin of the memory of the argument and leaves the rest of that memory, all other memory and all other kernels alone; reading it into a buffer with room for the argument gives the size and an image of what was written, and into the same buffer the same bytes. Buffers that do not fit are refused without effect. Raw memory is transferred only with exactly the size of the argument and comes back as it was. An update of regions that succeeds had regions inside of the argument only, and every byte is that of the last region it lies in. A buffer that cannot be remapped is noticed. An argument with memory stays with its context.", "quantifier": "all contexts with a node and a remapping kernel, normal or for debugging, all images and addresses, all contents and sizes of arguments, all lists of regions", "why_tests_cant": "Tests write a few buffers to arguments of just their size, on devices where allocation and remapping succeed and nodes are selected one way; other sizes, overlapping regions, sums of 64 bits that wrap around and images that cannot be remapped are not tried.", "anchors": ["sixtracklib/opencl/internal/argument.cpp:27-159", "sixtracklib/opencl/internal/argument.cpp:183-229", "sixtracklib/opencl/internal/argument.cpp:279-293", "sixtracklib/opencl/internal/argument.cpp:317-365", "sixtracklib/opencl/internal/argument.cpp:367-515", "sixtracklib/opencl/kernels/managed_buffer_remap.cl:14-27", "sixtracklib/opencl/kernels/managed_buffer_remap_debug.cl:16-47"]}
{"id": "C95", "title": "The OpenCL context for tracking launches the right kernel with the right arguments", "statement": "In a context whose kernels have been found, assigning particles, a set, a beam line, output, configurations, a slot size or status flags sets exactly the arguments of exactly the kernels that stand for them and changes no other. Each call for tracking, for handing out or clearing output and for addresses asks for exactly one launch of the kernel of its task, with the assigned arguments, the given turn, elements, set or offset at their places and the number of particles of the set as work items; it is a success iff the launch was taken and, in debug mode, the status flags say so. After tracking another set, the selected set is restored if that was asked for. Without a node, with too few arguments or with status flags that cannot be cleared nothing is launched.", "quantifier": "all contexts with a node and a kernel for every task, normal or for debugging; all arguments, sets, turns and devices", "why_tests_cant": "Tests track the one set they have selected with kernels that were found and launches that are taken; the arguments handed to OpenCL are never looked at, nor are sets tracked without restoring, sets of different sizes, or contexts without some kernels.", "anchors": ["sixtracklib/opencl/internal/context.cpp:323-666", "sixtracklib/opencl/internal/context.cpp:668-1149", "sixtracklib/opencl/internal/context.cpp:1151-1613", "sixtracklib/opencl/internal/context.cpp:1803-2018"]}
{"id": "C96", "title": "The constructors of the OpenCL context for tracking leave the right programs, kernels and arguments", "statement": "A new context has the seven programs of its source files in a fixed order, compiled with the options of the context, the address spaces and, for tracking, the features of the library. A constructor with a node that can be used leaves this node selected, with a kernel for every task: the optimised ones unless the node belongs to AMD, each taken from the program whose source has a kernel of this name; slot sizes and the index of the configuration are set in exactly the kernels that have them, and nothing else. Selecting a node afterwards makes the same kernels and sets the slot size and, in debug mode, the status flags. Optimised tracking, debug mode and beam-beam elements can be changed only while there is no node, and then change the programs that are chosen.", "quantifier": "all OpenCL libraries, lists of nodes, directories, macros, and nodes; all tasks and arguments", "why_tests_cant": "Tests use one OpenCL installation with all source files, mostly one node, and one constructor; they never look at the options programs are compiled with, at ids of programs, at AMD nodes next to others, or at what is left if a source file is not there.", "anchors": ["sixtracklib/opencl/internal/context.cpp:52-319", "sixtracklib/opencl/internal/context.cpp:1634-1801", "sixtracklib/opencl/internal/context.cpp:2027-2408", "sixtracklib/opencl/internal/base_context.cpp:733-800", "sixtracklib/opencl/internal/base_context.cpp:1078-1099"]}
{"id": "C97", "title": "The OpenCL job tracks each of its particle sets once, with the buffers it was last reset with", "statement": "Preparing particles, beam elements and output sets exactly the kernel arguments that stand for these buffers, the first particle set and the configuration, and it succeeds only if the buffers reached the device. Tracking until a turn, along a part of the beam line or element by element asks for exactly one launch for each particle set of the job, in order, with the set as argument and a work item for each of its particles; it is a success iff OpenCL took all of them and, in debug mode, the kernels reported nothing, and afterwards the selected set is the argument again. After a successful reset these launches have the new particles and elements, whatever the job had before. Handing out output launches the kernel for it with the turn and offset of the job and reports whether that worked.", "quantifier": "all jobs, lists of particle sets, buffers, turns and parts of the beam line; all outcomes of OpenCL", "why_tests_cant": "Tests track one particle set on a device where every transfer and launch succeeds; they never look at the arguments of launches, at several sets with different numbers of particles, or at a reset whose transfer fails.", "anchors": ["sixtracklib/opencl/internal/track_job_cl.cpp:738-759", "sixtracklib/opencl/internal/track_job_cl.cpp:817-1167", "sixtracklib/opencl/internal/track_job_cl.cpp:1445-1634", "sixtracklib/opencl/track_job_cl.h:641-783"]}
{"id": "C98", "title": "Collecting and pushing of the OpenCL job move exactly the buffers that were asked for, unchanged", "statement": "Collecting copies exactly those of particles, output, beam elements and particle addresses whose flags are set and which have an argument and a buffer: each buffer gets the image on the device, made for its own address, and everything else on the host and the device stays. Pushing does the same in the other direction, and what was pushed and is collected again is what it was. The functions for one part concern that part only; enabling and disabling change the flag of one part. Fetching particle addresses succeeds iff the kernel ran and its result reached the host. Stored buffers are transferred by their id in the same way, and for an id without a buffer nothing happens. A transfer that fails is reported.", "quantifier": "all jobs, flags, formats of buffers with images that can be rebased, sizes, addresses and contents of device memory; all outcomes of OpenCL", "why_tests_cant": "Tests collect everything from a device where each transfer succeeds and compare a few particles; they do not look at buffers that were not asked for, at buffers that have grown since their argument was made, or at transfers that fail.", "anchors": ["sixtracklib/opencl/internal/track_job_cl.cpp:1368-1443", "sixtracklib/opencl/internal/track_job_cl.cpp:381-401", "sixtracklib/opencl/internal/track_job_cl.cpp:1171-1305", "sixtracklib/common/internal/track_job_base.cpp:103-275", "sixtracklib/common/track/definitions.h:143-165"]}
{"id": "C99", "title": "The OpenCL job assigns addresses for every pair of buffers that has items, with the arguments of these buffers", "statement": "Ids 1 to 5 lead to the job's own buffers and arguments, ids from 1024 on to the stored buffer and to the argument made with it, all others to nothing. Assigning addresses for a pair of buffers launches the kernel once, with a work item for each item of the pair, the memory of the two buffers and their ids, provided that both arguments have been made with the buffers the job has now; otherwise nothing happens and it is reported. Assigning all addresses does so for each pair that has items, in the order of their ids, and leaves the other kernels and the rest of the job alone.", "quantifier": "all jobs with lists of items reached by any operations, all stored buffers reached by any operations, all pairs of ids, both modes, all outcomes of OpenCL", "why_tests_cant": "Tests assign addresses for one or two pairs of buffers which are all there; they do not make items about ids that are no buffers, or replace a buffer after its argument was made.", "anchors": ["sixtracklib/opencl/internal/track_job_cl.cpp:405-449", "sixtracklib/opencl/internal/track_job_cl.cpp:485-508", "sixtracklib/opencl/internal/track_job_cl.cpp:1307-1360", "sixtracklib/common/internal/track_job_base.cpp:939-987", "sixtracklib/common/internal/track_job_base.cpp:1108-1129"]}
{"id": "C100", "title": "Strings in buffers behave like strings of limited length", "statement": "An object holds a string if the length is that of the string, the string ends within the capacity and all cells after it within the capacity are zero. Assigning, appending, clearing and synchronising the length turn an object that holds a string into one that holds the assigned, the joined, the empty and the same string, or leave it alone if the result has no room; memory beyond the capacity is never touched. Adding a string to a buffer gives an object that holds it and has room for the number of characters asked for, and a copy is like the original.", "quantifier": "all strings, capacities and slot sizes, all sequences of operations with C strings that end within their memory", "why_tests_cant": "Tests use a few short strings; they do not add a string that is one character too long, assign to an object without room, copy again and again or use more than 1023 characters.", "anchors": ["sixtracklib/common/buffer/buffer_string_object.h:332-378", "sixtracklib/common/buffer/buffer_string_object.h:455-656", "sixtracklib/common/buffer/buffer_string_object.h:715-733", "sixtracklib/common/buffer/buffer_string_object.h:784-930"]}
{"id": "C101", "title": "The blocks and threads of a CUDA kernel cover its work items, and no more blocks than needed are used", "statement": "After an update of a configuration the blocks have the size of the work groups and there are as many as needed for the work items in each direction, so that every work item belongs to exactly one thread; the totals are the products. Sizes that are missing or have different directions are refused and change nothing. A configuration whose sizes have changed since the last update is not used for a launch.", "quantifier": "all configurations with one to three directions, all sizes, all sequences of operations", "why_tests_cant": "Tests use one direction with small sizes and always update before a launch; they do not change sizes afterwards, use 2^32 blocks or read totals of large grids.", "anchors": ["sixtracklib/cuda/control/kernel_config.cpp:29-108", "sixtracklib/cuda/control/kernel_config.cpp:145-256", "sixtracklib/common/control/kernel_config_base.cpp:667-702", "sixtracklib/common/control/kernel_config_base.cpp:740-770", "sixtracklib/cuda/control/controller.cpp:1536-1604"]}
{"id": "C102", "title": "The CUDA track job launches each kernel with its own configuration and reports what it leaves in the debug register", "statement": "Preparing the kernels gives every kernel its own configuration, with blocks of the configured size and enough of them for its work items. Tracking, assigning output and fetching addresses launch the kernel they are named after, once, on the first particle set; in the debug mode the status is the one left in the debug register, and a failure if the register cannot be sent or received. The launched threads track all particles of the first set.", "quantifier": "all jobs with a selected node, all numbers of particles and threads per block, all contents of the debug register", "why_tests_cant": "The CUDA tests need a GPU and check final particle states only: they do not see which configuration a launch uses, how many threads there are, or whether the debug kernel was launched.", "anchors": ["sixtracklib/cuda/track/track_job.cpp:1400-1630", "sixtracklib/cuda/track/track_job.cpp:2321-2534", "sixtracklib/cuda/control/default_kernel_config.c:213-228", "sixtracklib/cuda/wrappers/track_job_wrappers.cu:341"]}
{"id": "C103", "title": "A CUDA track job that was set up or reset successfully has its buffers on the device", "statement": "After setting up or resetting a CUDA track job with success, the job has recorded the buffers of particles and elements it was given, its arguments for particles, particle addresses, elements, output and the configuration for output element by element refer to their buffers and the device holds their bytes, the kernels are made, output that is needed has been assigned, and ranges and particle sets are those of the sets that were asked for. It succeeds whenever the controller can send the buffers.", "quantifier": "all jobs, controllers, buffers of any size, choices of particle sets, and outcomes of sending, preparing and assigning", "why_tests_cant": "It needs a device on which a transfer or an allocation fails for one buffer only; the tests set up jobs on devices where every transfer succeeds, with set 0.", "anchors": ["sixtracklib/cuda/track_job.hpp:678-837", "sixtracklib/cuda/track/track_job.cpp:749-761", "sixtracklib/cuda/track/track_job.cpp:1167-1398", "sixtracklib/cuda/track/track_job.cpp:1654-1764"]}
{"id": "C104", "title": "The CUDA kernel for addresses stores those of every set, for every order of its threads", "statement": "However the threads of a launch are divided into blocks and in whatever order they make their steps, once all of them have ended every record of the buffer of addresses holds the addresses of the particle set with its index (zeros if there is none), all other objects are as before, and the result is the same for every launch and in both modes. In the debug mode the register tells of a failure exactly if an object of the buffer is no record, although it is not changed atomically; buffers with different numbers of objects are a failure. Every thread ends. Of the kernels meant for one thread exactly one thread works.", "quantifier": "all grids and blocks within 32 bits, all schedules of the threads, all buffers of addresses and of particles", "why_tests_cant": "A run shows one order of the threads, chosen by the device; that a register which is read and written in two steps loses no report has to be known of all of them.", "anchors": ["sixtracklib/cuda/kernels/extract_particles_addr.cu:23-76", "sixtracklib/cuda/wrappers/track_job_wrappers.cu:475-548", "sixtracklib/common/particles/particles_addr.h:954-1063", "sixtracklib/cuda/track/track_job.cpp:1558-1630", "sixtracklib/cuda/kernels/managed_buffer_remap.cu:18-80", "sixtracklib/cuda/kernels/be_monitors_assign_out_buffer.cu:21-56", "sixtracklib/cuda/kernels/elem_by_elem_assign_out_buffer.cu:22-65"]}
{"id": "C105", "title": "Remapping on the CUDA device reports what happened, and asking tells whether it did", "statement": "In the debug mode the status of a remapping is a success exactly if the kernel could remap the memory, which then holds the remapped buffer; else the memory is as before and the register tells whether it still has to be remapped. Without a kernel, a register, memory or slots of some size remapping fails and changes nothing. Asking whether an argument is remapped gives an answer exactly if kernels can run, the register can be written and read and there is memory, and then tells whether the header has the address of the memory or none; else there is an exception. Neither changes what the other reports.", "quantifier": "all controllers, arguments, buffers and ways of remapping bytes, with copies to and from the device that succeed or fail", "why_tests_cant": "Copies that fail and kernels that fail outside the debug mode do not happen in a test run, and no test reads the register after asking.", "anchors": ["sixtracklib/cuda/control/controller.cpp:701-725", "sixtracklib/cuda/control/controller.cpp:942-1115", "sixtracklib/cuda/control/controller.cpp:1470-1487", "sixtracklib/cuda/wrappers/controller_wrappers.cu:21-150", "sixtracklib/cuda/kernels/managed_buffer_remap.cu:18-80", "sixtracklib/common/control/arch_base.cpp:159-244", "sixtracklib/common/control/controller_base.cpp:454-490"]}
{"id": "C106", "title": "An element is found by its index exactly if the object there has its type", "statement": "For each of the 22 types with a function ..._const_from_obj_index, looking up an element by its index in a buffer gives the address of the object with that index if the object has the number of the type and is large enough, and null otherwise; no object is found as an element of two types; indices that are not those of objects give null.", "quantifier": "all types, all buffers, all indices, all sizes of the types", "why_tests_cant": "Tests look up the elements that they stored; what an index behind the last object gives depends on what happens to follow the object index.", "anchors": ["sixtracklib/common/buffer/buffer_generic.h:1234-1265", "sixtracklib/common/buffer/managed_buffer_minimal.h:769-792", "sixtracklib/common/internal/objects_type_id.h:16-47", "sixtracklib/common/buffer/buffer_object.h:24-30", "sixtracklib/common/buffer/buffer_object.h:178-202", "sixtracklib/common/be_drift/be_drift.h:380-442", "sixtracklib/common/be_beamfields/be_beamfields.h:1735-1744", "sixtracklib/common/be_tricub/be_tricub.h:958-967"]}
