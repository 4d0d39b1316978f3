{
 "claims": [
  {
   "property": "C01",
   "status": "proved",
   "theorems": [
    "SixTrack.C01_add_object",
    "SixTrack.C01_add_defined"
   ],
   "note": "Byte-level model, slot size 8, buffer owned by a one-block memory pool. For every reachable buffer, object and malloc: a successful NS(Buffer_add_object) stores the object, keeps all others (also through growth), and adding is always defined."
  },
  {
   "property": "C02",
   "status": "partial",
   "theorems": [
    "SixTrack.C02_list_of_objects_partial",
    "SixTrack.C02_change_in_place",
    "SixTrack.C02_reserve_capacity_violated",
    "SixTrack.C02_growth_violated"
   ],
   "note": "C02_list_of_objects_partial: every reachable history of successful calls of new, add, reserve, clear, reset, write and copy. False of histories that include NS(Buffer_reserve_capacity) (C02_reserve_capacity_violated: the buffer refers to freed memory afterwards) or that grow a buffer whose last attribute array is empty (C02_growth_violated)."
  },
  {
   "property": "C03",
   "status": "partial",
   "theorems": [
    "SixTrack.C03_relocate_partial",
    "SixTrack.C03_new_from_copy_partial",
    "SixTrack.C03_relocate_violated",
    "SixTrack.C03_new_from_copy_violated"
   ],
   "note": "False as stated: a last attribute array that is empty makes remapping fail (C03_relocate_violated, C03_new_from_copy_violated). Proved when the last attribute of the last object is not empty, for NS(Buffer_refresh) and NS(Buffer_new_from_copy)."
  },
  {
   "property": "C04",
   "status": "proved",
   "theorems": [
    "SixTrack.C04_remap_idempotent",
    "SixTrack.C04_buffer_remap_idempotent",
    "SixTrack.C04_retry_after_failure"
   ],
   "note": "For NS(ManagedBuffer_remap) and NS(Buffer_remap), on the bytes of any reachable buffer at any address. C04_retry_after_failure shows that a failed remap hides itself: a second attempt reports success."
  },
  {
   "property": "C05",
   "status": "partial",
   "theorems": [
    "SixTrack.C05_write_partial",
    "SixTrack.C05_write_violated"
   ],
   "note": "False as stated when the last attribute array is empty (C05_write_violated: writing reports failure and leaves a broken buffer). Proved otherwise: the buffer is restored, and the file read anywhere and refreshed gives the same objects."
  },
  {
   "property": "C06",
   "status": "partial",
   "theorems": [
    "SixTrack.C06_reserve_partial",
    "SixTrack.C06_reserve_violated"
   ],
   "note": "False as stated: C06_reserve_violated (a failing reserve has already moved the garbage section and zeroed its header). Proved: success gives the capacities and keeps the objects; failure keeps objects, numbers and all other capacities."
  },
  {
   "property": "C07",
   "status": "proved",
   "theorems": [
    "SixTrack.C07_sections",
    "SixTrack.C07_objects"
   ],
   "note": "For all reachable buffers: alignment, disjointness, length, numbers at most capacities; the objects are pairwise disjoint parts of the slots."
  },
  {
   "property": "C08",
   "status": "partial",
   "theorems": [
    "SixTrack.C08_init_length",
    "SixTrack.C08_prediction_partial",
    "SixTrack.C08_prediction_violated",
    "SixTrack.C08_slots"
   ],
   "note": "False as stated in memory that is not clean: initialising takes over the header length that happens to be there (C08_prediction_violated). Proved: the reported length for any slot size, the prediction in clean memory for slot size 8, and the number of slots used by adding."
  },
  {
   "property": "C09",
   "status": "proved",
   "theorems": [
    "SixTrack.C09_clear",
    "SixTrack.C09_clear_zero",
    "SixTrack.C09_refill"
   ],
   "note": "For NS(Buffer_clear) with and without zeroing, on all reachable buffers; refilling up to the capacity succeeds."
  },
  {
   "property": "C10",
   "status": "partial",
   "theorems": [
    "SixTrack.C10_spare_partial",
    "SixTrack.C10_growth_partial",
    "SixTrack.C10_add_violated"
   ],
   "note": "Success with spare capacity in all sections (C10_spare_partial) and by growing when no section has to get smaller (C10_growth_partial). False as stated: adding asks for capacities that would shrink the slots section and fails (C10_add_violated)."
  },
  {
   "property": "C11",
   "status": "partial",
   "theorems": [
    "SixTrack.C11_lookup_partial",
    "SixTrack.C11_lookup_violated"
   ],
   "note": "False as stated at the index equal to the number of objects (C11_lookup_violated: a non-null pointer past the last object). Proved for all other indices."
  },
  {
   "property": "C12",
   "status": "partial",
   "theorems": [
    "SixTrack.C12_can_add_partial",
    "SixTrack.C12_missing_violated"
   ],
   "note": "The query is defined and the yes/no answer is right (C12_can_add_partial); if the answer is no, the reported numbers are the negated missing capacities modulo 2^64 (C12_missing_violated)."
  },
  {
   "property": "C13",
   "status": "partial",
   "theorems": [
    "SixTrack.C13_append_partial",
    "SixTrack.C13_history_partial",
    "SixTrack.C13_append_violated",
    "SixTrack.C13_init",
    "SixTrack.C13_reserve",
    "SixTrack.C13_clear_to_aligned_violated"
   ],
   "note": "append_aligned, any history, init and reserve proved for requests whose 64-bit arithmetic does not overflow; witnesses where it does (alignment 0, lcm overflow, size rounding) and for clear_to_aligned_position (inverted comparison)"
  },
  {
   "property": "C14",
   "status": "partial",
   "theorems": [
    "SixTrack.C14_gcd",
    "SixTrack.C14_lcm_partial",
    "SixTrack.C14_lcm_violated",
    "SixTrack.C14_common_partial",
    "SixTrack.C14_log2_floor_partial",
    "SixTrack.C14_log2_floor_violated",
    "SixTrack.C14_log2_ceil_partial",
    "SixTrack.C14_log2_ceil_violated",
    "SixTrack.C14_commonN_value",
    "SixTrack.C14_commonN_partial",
    "SixTrack.C14_commonN_violated"
   ],
   "note": "gcd proved for all arguments; lcm/common3..8 proved when the product is representable; log2_floor, log2_ceil, commonN characterised exactly where they are right and refuted elsewhere"
  },
  {
   "property": "C15",
   "status": "partial",
   "theorems": [
    "SixTrack.C15_remove_last_partial",
    "SixTrack.C15_clear_partial",
    "SixTrack.C15_append_violated",
    "SixTrack.C15_remove_several_violated"
   ],
   "note": "append is broken (refuted for every well-formed array with zero unused offsets), remove_last and clear proved, remove_last_num refuted"
  },
  {
   "property": "C16",
   "status": "proved",
   "theorems": [
    "SixTrack.C16_status_roundtrip",
    "SixTrack.C16_evaluate",
    "SixTrack.C16_reset",
    "SixTrack.C16_min_status_violated"
   ],
   "note": "Proved for every register and every status except INT32_MIN, which the C code cannot store without undefined behaviour (C16_min_status_violated)."
  },
  {
   "property": "C17",
   "status": "proved",
   "theorems": [
    "SixTrack.C17_raise_sets_new_flag",
    "SixTrack.C17_raise_full",
    "SixTrack.C17_raise_n"
   ],
   "note": ""
  },
  {
   "property": "C18",
   "status": "proved",
   "theorems": [
    "SixTrack.C18_any_schedule",
    "SixTrack.C18_same_result",
    "SixTrack.C18_missing_source_violated",
    "SixTrack.C18_missing_destination",
    "SixTrack.C18_index_violated"
   ],
   "note": "any permutation of the work-items' indices (a superset of all interleavings), any number of work-items; sources and destinations exist, destinations distinct. Refuted for an item whose source lookup fails: null address stored, success reported."
  },
  {
   "property": "C19",
   "status": "proved",
   "theorems": [
    "SixTrack.C19_record_in_output",
    "SixTrack.C19_records_distinct",
    "SixTrack.C19_outside_not_stored"
   ],
   "note": ""
  },
  {
   "property": "C20",
   "status": "proved",
   "theorems": [
    "SixTrack.C20_decode_encode",
    "SixTrack.C20_encode_decode"
   ],
   "note": ""
  },
  {
   "property": "C21",
   "status": "proved",
   "theorems": [
    "SixTrack.C21_shared_record",
    "SixTrack.C21_recent_turns_kept",
    "SixTrack.C21_init_max_turn_partial",
    "SixTrack.C21_init_max_turn_violated"
   ],
   "note": "Rolling storage proved for every history. Finding: the initialisation picks the last stored turn by comparing the target turn with the smallest element id; see C21_init_max_turn_violated and its _partial."
  },
  {
   "property": "C22",
   "status": "proved",
   "theorems": [
    "SixTrack.C22_selected_turn_has_record",
    "SixTrack.C22_shared_record",
    "SixTrack.C22_records_distinct",
    "SixTrack.C22_other_turns_not_stored",
    "SixTrack.C22_history",
    "SixTrack.C22_track_outcome"
   ],
   "note": ""
  },
  {
   "property": "C23",
   "status": "partial",
   "theorems": [
    "SixTrack.C23_particle_ordered_partial",
    "SixTrack.C23_violated"
   ],
   "note": "False in general: the code uses the number of particles as stride (C23_violated); proved for equal numbers of stores and particles or one particle."
  },
  {
   "property": "C24",
   "status": "proved",
   "theorems": [
    "SixTrack.C24_prepared_addresses",
    "SixTrack.C24_assign",
    "SixTrack.C24_exclusive",
    "SixTrack.C24_inactive_keeps_stale_address_violated"
   ],
   "note": "Proved for every lattice; inactive monitors keep a stale address (C24_inactive_keeps_stale_address_violated)."
  },
  {
   "property": "C25",
   "status": "partial",
   "theorems": [
    "SixTrack.C25_prepared_can_be_assigned_partial",
    "SixTrack.C25_violated"
   ],
   "note": "False in general (C25_violated); C25_..._partial gives the exact condition as an equivalence."
  },
  {
   "property": "C26",
   "status": "partial",
   "theorems": [
    "SixTrack.C26_started_monitor_partial",
    "SixTrack.C26_first_turn_violated",
    "SixTrack.C26_prediction_partial",
    "SixTrack.C26_violated"
   ],
   "note": "False for monitors that start before the first turn (C26_violated)."
  },
  {
   "property": "C27",
   "status": "proved",
   "theorems": [
    "SixTrack.C27_range_or_duplicate",
    "SixTrack.C27_no_particles",
    "SixTrack.C27_sort_in_bounds"
   ],
   "note": ""
  },
  {
   "property": "C28",
   "status": "partial",
   "theorems": [
    "SixTrack.C28_at_element_tight",
    "SixTrack.C28_at_turn_tight",
    "SixTrack.C28_attributes_tight",
    "SixTrack.C28_buffer_attributes_tight",
    "SixTrack.C28_nothing_to_report",
    "SixTrack.C28_no_duplicate_check_violated",
    "SixTrack.C28_no_duplicate_check_partial"
   ],
   "note": "Proved for the attribute ranges of a set and of all sets of a buffer, and for element ids and turns; false for the id range without duplicate check, which starts from an element id (C28_no_duplicate_check_violated)."
  },
  {
   "property": "C29",
   "status": "partial",
   "theorems": [
    "SixTrack.C29_copy_range_partial",
    "SixTrack.C29_copy_single_partial",
    "SixTrack.C29_copy",
    "SixTrack.C29_violated"
   ],
   "note": "Whole-set copies proved. Range and single copies proved for destination indices inside the destination; an out-of-range destination index is silently redirected (C29_violated)."
  },
  {
   "property": "C30",
   "status": "proved",
   "theorems": [
    "SixTrack.C30_interrupt_resume"
   ],
   "note": ""
  },
  {
   "property": "C31",
   "status": "partial",
   "theorems": [
    "SixTrack.C31_lost_is_frozen",
    "SixTrack.C31_element_by_element_violated",
    "SixTrack.C31_element_by_element_partial"
   ],
   "note": "Proved for plain tracking, tracking along pieces and single elements. False for element-by-element tracking, which moves lost particles (C31_element_by_element_violated)."
  },
  {
   "property": "C32",
   "status": "partial",
   "theorems": [
    "SixTrack.C32_two_pieces_partial",
    "SixTrack.C32_pieces_partial",
    "SixTrack.C32_line_is_turn_partial",
    "SixTrack.C32_violated",
    "SixTrack.C32_elements_mark_loss",
    "SixTrack.C32_lattice_in_pieces",
    "SixTrack.C32_disabled_element_violated"
   ],
   "note": "Proved for every lattice without disabled elements (C32_elements_mark_loss, C32_lattice_in_pieces); false with a disabled TriCubData object (C32_disabled_element_violated)."
  },
  {
   "property": "C33",
   "status": "partial",
   "theorems": [
    "SixTrack.C33_same_particles_partial",
    "SixTrack.C33_records_partial",
    "SixTrack.C33_records_rolling_partial",
    "SixTrack.C33_negative_id_violated",
    "SixTrack.C33_failure_violated"
   ],
   "note": "Proved for living particles with non-negative id, element and turn and elements that mark loss; false otherwise (C33_negative_id_violated, C33_failure_violated, C31_element_by_element_violated). Records proved for plain and rolling output."
  },
  {
   "property": "C34",
   "status": "proved",
   "theorems": [
    "SixTrack.C34_elements_own_records",
    "SixTrack.C34_lattice",
    "SixTrack.C34_one_item",
    "SixTrack.C34_any_schedule",
    "SixTrack.C34_any_schedule_output",
    "SixTrack.C34_fair_schedules_finish",
    "SixTrack.C34_same_id_output_violated"
   ],
   "note": "Particles: proved for every element semantics, number of work-items and interleaving of loop iterations. Monitor output: proved for particles with different ids; with equal ids it depends on the schedule (C34_same_id_output_violated)."
  },
  {
   "property": "C35",
   "status": "partial",
   "theorems": [
    "SixTrack.C35_rect",
    "SixTrack.C35_ellipse_partial",
    "SixTrack.C35_set_half_axes",
    "SixTrack.C35_degenerate_ellipse_violated",
    "SixTrack.C35_rect_ellipse_partial",
    "SixTrack.C35_rect_ellipse_cleared",
    "SixTrack.C35_set_axes_violated",
    "SixTrack.C35_global",
    "SixTrack.C35_global_off",
    "SixTrack.C35_global_conditional",
    "SixTrack.C35_min_drift_length_violated",
    "SixTrack.C35_nan_is_lost",
    "SixTrack.C35_exact_drift_beyond_horizon_is_lost"
   ],
   "note": "Rectangle, global limits, proper ellipses: decided exactly, NaN is lost, loss is marked. False: a degenerate ellipse accepts every y, setters of the rectangle-ellipse do not update the product used by the test, the conditional check compares with the setting's value instead of the minimal drift length."
  },
  {
   "property": "C36",
   "status": "proved",
   "theorems": [
    "SixTrack.C36_drifts_compose",
    "SixTrack.C36_drift_keeps_momenta",
    "SixTrack.C36_drift_moves",
    "SixTrack.C36_drift_reversible",
    "SixTrack.C36_exact_drifts_compose",
    "SixTrack.C36_exact_drift_keeps_momenta",
    "SixTrack.C36_exact_drift_moves",
    "SixTrack.C36_exact_drift_reversible"
   ],
   "note": "Composition, inverse and the geometric meaning, expanded and exact drift, in real arithmetic (the exact drift for px^2+py^2 < (1+delta)^2)."
  },
  {
   "property": "C37",
   "status": "proved",
   "theorems": [
    "SixTrack.C37_shift_invertible",
    "SixTrack.C37_rotation_invertible",
    "SixTrack.C37_rotations_compose",
    "SixTrack.C37_rotation_isometry",
    "SixTrack.C37_rotation_direction",
    "SixTrack.C37_degrees"
   ],
   "note": "Inverse, additivity, isometry, direction and degrees."
  },
  {
   "property": "C38",
   "status": "partial",
   "theorems": [
    "SixTrack.C38_kick_of_strengths_partial",
    "SixTrack.C38_order_11_violated",
    "SixTrack.C38_kick",
    "SixTrack.C38_kick_curved",
    "SixTrack.C38_reads"
   ],
   "note": "Kick formula for the stored coefficients at all orders (with and without curvature). For strengths set through the interface: all orders up to 20 except 11; at order 11 the kick is 11 times too large (wrong factorial), witness proved."
  },
  {
   "property": "C39",
   "status": "proved",
   "theorems": [
    "SixTrack.C39_energy_additive",
    "SixTrack.C39_energy_consistent",
    "SixTrack.C39_delta_consistent",
    "SixTrack.C39_no_change",
    "SixTrack.C39_energy_reversible",
    "SixTrack.C39_time_kept",
    "SixTrack.C39_energy_gain_partial",
    "SixTrack.C39_energy_gain_violated"
   ],
   "note": "Additivity, consistency after adding energy and setting delta, reversibility. Also: the energy read back grows by dE times the mass ratio (witness C39_energy_gain_violated for mass ratio 2)."
  },
  {
   "property": "C40",
   "status": "partial",
   "theorems": [
    "SixTrack.C40_line_partial",
    "SixTrack.C40_tracking_is_line_map",
    "SixTrack.C40_drift",
    "SixTrack.C40_exact_drift",
    "SixTrack.C40_multipole_partial",
    "SixTrack.C40_multipole_violated",
    "SixTrack.C40_shift",
    "SixTrack.C40_rotation",
    "SixTrack.C40_dipole_edge",
    "SixTrack.C40_cavity"
   ],
   "note": "Proved for drifts, exact drifts, straight multipoles (and bending ones for chi = 1), shifts, rotations, dipole edges, cavities, RF dipoles, and for whole lines of them; C40_tracking_is_line_map links lines to the tracking loops. Bending multipoles with chi other than 1 are not symplectic (C40_multipole_violated). Beam-beam, space charge and TriCub kicks are not covered."
  },
  {
   "property": "C41",
   "status": "proved",
   "theorems": [
    "SixTrack.C41_potential",
    "SixTrack.C41_corners"
   ],
   "note": "All 1000 statements of the coefficient function transcribed; exact arithmetic. A particle outside of the grid is not covered: the bounds are only asserted."
  },
  {
   "property": "C42",
   "status": "partial",
   "theorems": [
    "SixTrack.C42_linear_samples",
    "SixTrack.C42_linear_between",
    "SixTrack.C42_linear_prepare",
    "SixTrack.C42_cubic_samples_partial",
    "SixTrack.C42_cubic_last_violated",
    "SixTrack.C42_linear_yp_ex_violated",
    "SixTrack.C42_linear_ex",
    "SixTrack.C42_linear_ex_outside",
    "SixTrack.C42_linear_right_violated",
    "SixTrack.C42_cubic_smooth_partial",
    "SixTrack.C42_cubic_prepare_natural",
    "SixTrack.C42_not_a_knot_violated"
   ],
   "note": "Samples are met by the linear interpolation everywhere and by the cubic one except at the last sample, where the evaluation reads past the arrays; the cubic interpolation is twice continuously differentiable for natural, clamped and proportional boundaries, and has a jump in the first derivative for not-a-knot; behind the table the linear extrapolation uses a slope that the preparation never sets (C42_linear_right_violated). Exact arithmetic."
  },
  {
   "property": "C43",
   "status": "partial",
   "theorems": [
    "SixTrack.C43_factorial_table",
    "SixTrack.C43_set_normal",
    "SixTrack.C43_set_skew",
    "SixTrack.C43_beyond_order_partial",
    "SixTrack.C43_index_wraps_violated",
    "SixTrack.C43_set_all_normal",
    "SixTrack.C43_set_all_skew",
    "SixTrack.C43_set_coefficients",
    "SixTrack.C43_set_all_coefficients_violated"
   ],
   "note": "Read back and frame for one and all orders, for all orders of the element. False: index 2^63 wraps to 0; set_all_bal_values writes nothing; the table of factorials is right exactly up to 20 without 11."
  },
  {
   "property": "C44",
   "status": "partial",
   "theorems": [
    "SixTrack.C44_round_trip",
    "SixTrack.C44_invalid",
    "SixTrack.C44_to_chars",
    "SixTrack.C44_order",
    "SixTrack.C44_order_lexicographic",
    "SixTrack.C44_formatted_partial",
    "SixTrack.C44_formatted_violated",
    "SixTrack.C44_formatted_wide_violated",
    "SixTrack.C44_compute_round_trip_partial",
    "SixTrack.C44_compute_wide_violated",
    "SixTrack.C44_compute_unnamed_violated",
    "SixTrack.C44_compute_order_partial",
    "SixTrack.C44_compute_lexicographic",
    "SixTrack.C44_compute_order_violated"
   ],
   "note": "toString/fromString round trip for all 64-bit ids and the order are proved in full; to_string with a format truncates (refuted) and cuts ids to 32 bits (refuted); ComputeNodeId round trip for ids below 2^31, refuted beyond and for unnamed architectures; its compare is not antisymmetric on invalid ids (refuted)."
  },
  {
   "property": "C45",
   "status": "partial",
   "theorems": [
    "SixTrack.C45_one_partial",
    "SixTrack.C45_two_violated",
    "SixTrack.C45_three_violated",
    "SixTrack.C45_array_partial",
    "SixTrack.C45_array_violated",
    "SixTrack.C45_total_violated",
    "SixTrack.C45_multiples_partial",
    "SixTrack.C45_multiples_array_violated"
   ],
   "note": "holds for the one-size setter and the scalar setters of multiples; refuted for two and three sizes, for the array overloads (accept 0) and for the total (always 0)."
  },
  {
   "property": "C46",
   "status": "partial",
   "theorems": [
    "SixTrack.C46_history_partial",
    "SixTrack.C46_copy_assign_violated",
    "SixTrack.C46_moved_from_dangles_violated"
   ],
   "note": "holds for every history without copy assignment from a non-owning store to an owning one; that case is refuted. Pointers only, not contents."
  },
  {
   "property": "C47",
   "status": "partial",
   "theorems": [
    "SixTrack.C47_has_turn_stored_partial",
    "SixTrack.C47_violated"
   ],
   "note": "False for the first turn not tracked yet and for unlimited turns (C47_violated); proved for all earlier turns."
  },
  {
   "property": "C48",
   "status": "partial",
   "theorems": [
    "SixTrack.C48_set_all_normal",
    "SixTrack.C48_set_normal_phases",
    "SixTrack.C48_set_phase_value",
    "SixTrack.C48_set_highest_order_partial",
    "SixTrack.C48_set_lower_order_violated",
    "SixTrack.C48_set_all_skew_violated",
    "SixTrack.C48_set_skew_phases_violated",
    "SixTrack.C48_set_phase_array_violated",
    "SixTrack.C48_set_all_phases_violated",
    "SixTrack.C48_set_all_phases_ub_violated",
    "SixTrack.C48_set_all_normal_phases_violated",
    "SixTrack.C48_set_all_skew_phases_violated"
   ],
   "note": "Setting all normal strengths / phases works. False (proved for all objects): single setters refuse all orders but the highest, skew setters write normal entries, set_phase overwrites strengths, set_all_phase_values writes nothing or runs away."
  },
  {
   "property": "C49",
   "status": "partial",
   "theorems": [
    "SixTrack.C49_multipole_copy",
    "SixTrack.C49_rf_multipole_copy",
    "SixTrack.C49_simple_copies",
    "SixTrack.C49_ellipse_copy",
    "SixTrack.C49_rect_ellipse_copy_violated",
    "SixTrack.C49_rect_ellipse_copy_partial",
    "SixTrack.C49_cleared_neutral_partial",
    "SixTrack.C49_cleared_dipole_edge_violated",
    "SixTrack.C49_cleared_rect"
   ],
   "note": "Multipole, RF multipole, ellipse and the plain elements. False: rectangle-ellipse copy, cleared dipole edge."
  },
  {
   "property": "C50",
   "status": "partial",
   "theorems": [
    "SixTrack.C50_map",
    "SixTrack.C50_is_cavity",
    "SixTrack.C50_is_multipole",
    "SixTrack.C50_symplectic_partial",
    "SixTrack.C50_symplectic_violated",
    "SixTrack.C50_reference_charge_violated"
   ],
   "note": "Map and special cases proved for all orders; symplectic for order 0 when chi is the charge; false for higher orders (C50_symplectic_violated) and for a reference charge of 2 (C50_reference_charge_violated)."
  },
  {
   "property": "C51",
   "status": "partial",
   "theorems": [
    "SixTrack.C51_write",
    "SixTrack.C51_new_from_file_partial",
    "SixTrack.C51_same_address_violated",
    "SixTrack.C51_empty_end_violated"
   ],
   "note": "Proved unless the last attribute of the last object is empty or malloc returns the address stored in the file; both cases are proved to lose the objects (C51_empty_end_violated, C51_same_address_violated). Files are byte lists, fread and fwrite are taken to succeed."
  },
  {
   "property": "C52",
   "status": "partial",
   "theorems": [
    "SixTrack.C52_read_partial",
    "SixTrack.C52_return_violated"
   ],
   "note": "The contents are replaced as stated (with the two exceptions of C51), but the value returned is the wrong way round: C52_return_violated."
  },
  {
   "property": "C53",
   "status": "partial",
   "theorems": [
    "SixTrack.C53_new_detailed_partial",
    "SixTrack.C53_new_detailed_violated"
   ],
   "note": "Proved for at most one garbage range; for two and more no buffer is ever made: C53_new_detailed_violated."
  },
  {
   "property": "C54",
   "status": "partial",
   "theorems": [
    "SixTrack.C54_on_data_partial",
    "SixTrack.C54_on_data_violated",
    "SixTrack.C54_copy_partial",
    "SixTrack.C54_copy_violated",
    "SixTrack.C54_copy_failure_violated",
    "SixTrack.C54_resize_violated"
   ],
   "note": "On data: proved up to an empty last attribute. From data: the objects are right only after a refresh; before it they are looked up in the source (C54_copy_violated), failures are reported as successes (C54_copy_failure_violated, C54_resize_violated)."
  },
  {
   "property": "C55",
   "status": "partial",
   "theorems": [
    "SixTrack.C55_objects_partial",
    "SixTrack.C55_add",
    "SixTrack.C55_clear_violated"
   ],
   "note": "Histories of adding are proved; clearing and resetting are allowed by the flags but always fail (C55_clear_violated). Sources are taken to be outside the buffer."
  },
  {
   "property": "C56",
   "status": "proved",
   "theorems": [
    "SixTrack.C56_inverse",
    "SixTrack.C56_inverse_then_boost",
    "SixTrack.C56_forward_after",
    "SixTrack.C56_conformal",
    "SixTrack.C56_inverse_conformal",
    "SixTrack.C56_no_crossing",
    "SixTrack.C56_backward_violated"
   ],
   "note": "exact reals; a particle flying backward in the boosted frame is not recovered (C56_backward_violated)"
  },
  {
   "property": "C57",
   "status": "partial",
   "theorems": [
    "SixTrack.C57_regular",
    "SixTrack.C57_singular",
    "SixTrack.C57_degenerate",
    "SixTrack.C57_defined",
    "SixTrack.C57_rotation",
    "SixTrack.C57_values",
    "SixTrack.C57_sizes",
    "SixTrack.C57_no_threshold_violated",
    "SixTrack.C57_large_threshold_violated",
    "SixTrack.C57_small_angle_violated"
   ],
   "note": "exact in the regular case, where the principal values agree exactly, and for angles which are zero or above the threshold; between, the code uses approximations: the values are within sqrt(threshold)/2 (C57_values), the derivative of the sine is not exact (C57_small_angle_violated); thresholds outside of (0, 1/2] can divide by zero"
  },
  {
   "property": "C58",
   "status": "partial",
   "theorems": [
    "SixTrack.C58_elliptic",
    "SixTrack.C58_bounded",
    "SixTrack.C58_odd",
    "SixTrack.C58_coefficients",
    "SixTrack.C58_closed",
    "SixTrack.C58_round",
    "SixTrack.C58_error",
    "SixTrack.C58_axis_violated",
    "SixTrack.C58_axis_division_violated",
    "SixTrack.C58_equal_sizes_violated"
   ],
   "note": "exact for elliptic beams everywhere and for round beams away from the axis; within 1e-10 of the axis of a round beam the code uses a wrong linearisation (C58_axis_violated), its coefficients divide by zero on the axis, equal sizes with min_sigma_diff <= 0 divide by zero; w is the exact function, C58_error bounds the effect of an approximation"
  },
  {
   "property": "C60",
   "status": "partial",
   "theorems": [
    "SixTrack.C60_slice",
    "SixTrack.C60_collision_point",
    "SixTrack.C60_symplectic",
    "SixTrack.C60_zero_charge",
    "SixTrack.C60_disabled",
    "SixTrack.C60_on_axis_violated"
   ],
   "note": "symplectic inside the branches: elliptic beams tilted by more than the threshold or not at all, and beams which are round at every distance for particles off the axis; at the borders of the branches and in the approximations for small angles and nearly equal sizes nothing is claimed; on the axis of a round beam the code divides by zero (C60_on_axis_violated)"
  },
  {
   "property": "C59",
   "status": "proved",
   "theorems": [
    "SixTrack.C59_defined",
    "SixTrack.C59_mirror",
    "SixTrack.C59_reflected",
    "SixTrack.C59_real_axis",
    "SixTrack.C59_imaginary_axis",
    "SixTrack.C59_accuracy",
    "SixTrack.C59_outside",
    "SixTrack.C59_field"
   ],
   "note": "Exact real arithmetic. The error bound 1e-8 inside of the rectangle rests on 941 cells which are checked with natural numbers in the kernel; what each check means is proved."
  },
  {
   "property": "C61",
   "status": "partial",
   "theorems": [
    "SixTrack.C61_enabled",
    "SixTrack.C61_skip_partial",
    "SixTrack.C61_disabled_partial",
    "SixTrack.C61_skip_interpolated_violated",
    "SixTrack.C61_own_switch",
    "SixTrack.C61_tricub_data"
   ],
   "note": "Violated for space charge with an interpolated profile: with skip or disabled the particle is lost, because the case label is compiled only if space charge is enabled."
  },
  {
   "property": "C62",
   "status": "partial",
   "theorems": [
    "SixTrack.C62_normalised",
    "SixTrack.C62_shifted",
    "SixTrack.C62_unimodal",
    "SixTrack.C62_support",
    "SixTrack.C62_unbounded_support",
    "SixTrack.C62_rms_partial",
    "SixTrack.C62_rms_violated",
    "SixTrack.C62_constant_partial",
    "SixTrack.C62_constant_violated",
    "SixTrack.C62_set_parameter"
   ],
   "note": "Normalisation, unimodality, support and the setter are proved. False: the constant is not defined for q within a gap beside 1 (the argument of tgamma exceeds its bound, C62_constant_violated) although the setter accepts such q; the rms length is the one set only for q = 1 (C62_rms_violated: the conversion ignores q)."
  },
  {
   "property": "C63",
   "status": "partial",
   "theorems": [
    "SixTrack.C63_small_partial",
    "SixTrack.C63_which_partial",
    "SixTrack.C63_nine_violated",
    "SixTrack.C63_negative",
    "SixTrack.C63_least_violated"
   ],
   "note": "True for absolute values up to 8 and, as C63_which_partial proves, exactly for a digit up to eight times a power of eight; 2^9 comes out as 2^16 (C63_nine_violated); the least integer overflows."
  },
  {
   "property": "C64",
   "status": "partial",
   "theorems": [
    "SixTrack.C64_beam_beam_partial",
    "SixTrack.C64_beam_beam_velocity_violated",
    "SixTrack.C64_beam_beam_disabled",
    "SixTrack.C64_qgaussian",
    "SixTrack.C64_interpolated_partial",
    "SixTrack.C64_coasting_partial",
    "SixTrack.C64_coasting_velocity_violated",
    "SixTrack.C64_profile_position_violated",
    "SixTrack.C64_switch_violated",
    "SixTrack.C64_transverse_beam_beam",
    "SixTrack.C64_transverse_coasting",
    "SixTrack.C64_transverse_qgaussian",
    "SixTrack.C64_transverse_interpolated",
    "SixTrack.C64_coasting_symplectic_violated",
    "SixTrack.C64_qgaussian_symplectic_violated",
    "SixTrack.C64_beam_beam_symplectic_violated"
   ],
   "note": "Kick formulas for exact fields of elliptic beams; the velocity of the particle is wrong for beam-beam (beta0/rvv, C64_beam_beam_velocity_violated) and coasting beams (C64_coasting_velocity_violated), the interpolated profile is read at zeta instead of zeta/rvv (C64_profile_position_violated), the switches of space-charge elements are ignored (C64_switch_violated). Symplectic in the transverse coordinates; in all six coordinates it is false (C64_*_symplectic_violated)."
  },
  {
   "property": "C65",
   "status": "partial",
   "theorems": [
    "SixTrack.C65_sizes",
    "SixTrack.C65_is_beam_element",
    "SixTrack.C65_all_beam_elements",
    "SixTrack.C65_predicted_partial",
    "SixTrack.C65_predicted_violated",
    "SixTrack.C65_copy_line_partial",
    "SixTrack.C65_copy_reserved_partial",
    "SixTrack.C65_copy_stops_violated",
    "SixTrack.C65_copy_failure_violated",
    "SixTrack.C65_copy_missing_violated",
    "SixTrack.C65_copy_6d_violated",
    "SixTrack.C65_new_line_partial",
    "SixTrack.C65_new_violated",
    "SixTrack.C65_copy_objects_partial",
    "SixTrack.C65_copy_objects_violated"
   ],
   "note": "Proved for lines of plain types: complete copy or failure, and complete copy if the predicted capacity is there. Violated for beam-beam elements, SCCoasting and SCQGaussProfile (status inverted: copy stops after the first one with 1, a failed one is skipped with 0), for types that are never copied (SCInterpolatedProfile, line density, TriCubData), for 6D beam-beam elements (stored with the type of 4D ones) and for the prediction (no slots for SCCoasting, SCInterpolatedProfile, TriCubData). New elements and copies between objects: only the dispatch is modelled, what the functions of the types do is an argument; violated for ten and two types."
  },
  {
   "property": "C66",
   "status": "partial",
   "theorems": [
    "SixTrack.C66_new",
    "SixTrack.C66_prepare",
    "SixTrack.C66_linear_partial",
    "SixTrack.C66_linear_end_violated",
    "SixTrack.C66_cubic_end_violated",
    "SixTrack.C66_cubic_partial",
    "SixTrack.C66_add_partial",
    "SixTrack.C66_add_violated",
    "SixTrack.C66_copy_partial",
    "SixTrack.C66_copy_refused",
    "SixTrack.C66_can_be_added_violated"
   ],
   "note": "Linear and cubic profiles: samples, smoothness, zero outside, preparation, copy and refusal proved. Violated in the code: the last step of the range uses an unset slope (linear) or reads behind the arrays (cubic); add stores the step as the beginning of the range and drops the step; can_be_added reads through null pointers."
  },
  {
   "property": "C67",
   "status": "partial",
   "theorems": [
    "SixTrack.C67_set_size",
    "SixTrack.C67_copy_refused",
    "SixTrack.C67_copy_4d",
    "SixTrack.C67_copy_6d_partial",
    "SixTrack.C67_copy_6d_violated",
    "SixTrack.C67_copy_short_violated",
    "SixTrack.C67_copy_coasting",
    "SixTrack.C67_copy_interpolated",
    "SixTrack.C67_copy_qgauss",
    "SixTrack.C67_copy_enabled",
    "SixTrack.C67_clear",
    "SixTrack.C67_qgauss_clear_violated"
   ],
   "note": "Copies of 4D elements and of the three space-charge elements are complete. Violated in the code: the copy of a 6D element keeps the slices of the destination; clearing a q-Gaussian element does not set min_sigma_diff."
  },
  {
   "property": "C68",
   "status": "partial",
   "theorems": [
    "SixTrack.C68_remap_checks",
    "SixTrack.C68_bad_object",
    "SixTrack.C68_without_pointers",
    "SixTrack.C68_size_violated",
    "SixTrack.C68_order_violated",
    "SixTrack.C68_pointer_violated"
   ],
   "note": "C68_remap_checks: for arbitrary records behind a well-formed header, success implies that all addresses were moved by B - A, objects begin in the slots and not before the 64-bit end of the previous one, and data pointers, their targets and garbage ranges lie in the used slots; nothing outside the buffer changes in any case. C68_bad_object gives the rejections, C68_without_pointers an exact criterion. Violated: the size of the last object is not checked (C68_size_violated), ends wrap modulo 2^64 so that objects may be out of order (C68_order_violated), data pointers are followed before they are checked (C68_pointer_violated: undefined instead of -1). Sizes of sections are computed without wrap in the model; the header itself is assumed to be in order."
  },
  {
   "property": "C69",
   "status": "partial",
   "theorems": [
    "SixTrack.C69_length",
    "SixTrack.C69_assertion_violated",
    "SixTrack.C69_assign_partial",
    "SixTrack.C69_assign_empty_violated",
    "SixTrack.C69_append",
    "SixTrack.C69_clear",
    "SixTrack.C69_sync_partial",
    "SixTrack.C69_sync_violated",
    "SixTrack.C69_lookup",
    "SixTrack.C69_assign_in_buffer_partial",
    "SixTrack.C69_append_in_buffer",
    "SixTrack.C69_clear_in_buffer",
    "SixTrack.C69_slots",
    "SixTrack.C69_add_partial",
    "SixTrack.C69_add_violated",
    "SixTrack.C69_add_refused",
    "SixTrack.C69_new_from_cstring",
    "SixTrack.C69_copy_violated",
    "SixTrack.C69_new_violated"
   ],
   "note": "Proved: assign, append, clear, sync, add, new from a C string, in memory and inside any reachable buffer. Violated, negations proved: a string of one character more than the maximal length is accepted and stored without its zero (length then reads 0); a string of capacity 1 refuses the empty string; the debug assertion fails for every string of 1024 or more characters; sync reads beyond the characters; a copy has a capacity larger by one; the capacity wraps for the largest maximal length."
  },
  {
   "property": "C70",
   "status": "partial",
   "theorems": [
    "SixTrack.C70_shifted_partial",
    "SixTrack.C70_zero",
    "SixTrack.C70_garbage_violated",
    "SixTrack.C70_garbage_zero_violated"
   ],
   "note": "Proved for buffers without garbage ranges (the library itself never makes any) and for the zero offset. With garbage ranges it is false: the loop starts at the section header, so the size of the garbage section is shifted and the last range keeps its address although success is reported (C70_garbage_violated); if the shifted size is zero the call fails (C70_garbage_zero_violated)."
  },
  {
   "property": "C71",
   "status": "partial",
   "theorems": [
    "SixTrack.C71_prepare_succeeds",
    "SixTrack.C71_prepared",
    "SixTrack.C71_records_fit",
    "SixTrack.C71_ebe_flag",
    "SixTrack.C71_monitor_flag_partial",
    "SixTrack.C71_monitor_flag_violated",
    "SixTrack.C71_prediction_partial",
    "SixTrack.C71_element_range_partial",
    "SixTrack.C71_element_range_empty",
    "SixTrack.C71_element_range_violated",
    "SixTrack.C71_assign"
   ],
   "note": "Preparing, offsets, record indices and the element-by-element flag are proved. The range of element ids (objects between the elements), the monitor flag and the predicted size (monitors starting before the first turn) are wrong in general: negations proved with witnesses, and the statements proved without those cases."
  },
  {
   "property": "C72",
   "status": "partial",
   "theorems": [
    "SixTrack.C72_reset_succeeds",
    "SixTrack.C72_ebe_ready",
    "SixTrack.C72_monitors_ready",
    "SixTrack.C72_output_added",
    "SixTrack.C72_nothing_required",
    "SixTrack.C72_reset_early_monitor_violated",
    "SixTrack.C72_stale_output_violated",
    "SixTrack.C72_own_buffer_violated",
    "SixTrack.C72_rolling_default_violated",
    "SixTrack.C72_num_elements_violated",
    "SixTrack.C72_failed_monitors"
   ],
   "note": "Proved for all jobs and usable ranges: exactly when a reset succeeds (C72_reset_succeeds), that element-by-element output and monitors are ready afterwards, what is added to the buffer, and what happens if nothing is required. The statement is false of the code in five cases, each proved with a witness: a lattice whose only monitors start before the first turn (reset fails), a second reset with the same buffer (old output stays), the job's own buffer (fails), the rolling default (overwritten), the number of elements (stays 0)."
  },
  {
   "property": "C73",
   "status": "partial",
   "theorems": [
    "SixTrack.C73_assign_partial",
    "SixTrack.C73_turns_lost_violated",
    "SixTrack.C73_refused_violated",
    "SixTrack.C73_config_lost_violated",
    "SixTrack.C73_cxx_status_violated",
    "SixTrack.C73_none_keeps",
    "SixTrack.C73_stays_off"
   ],
   "note": "Proved for particles that start in turn 0 (C73_assign_partial). False of the code otherwise: numElemByElemTurns is passed as the last turn, so turns are lost, the call fails, or the configuration is dropped; and the C++ overload returns the opposite status for every call (C73_cxx_status_violated)."
  },
  {
   "property": "C74",
   "status": "partial",
   "theorems": [
    "SixTrack.C74_chosen_partial",
    "SixTrack.C74_disjoint",
    "SixTrack.C74_num_in_set",
    "SixTrack.C74_ranges_tight",
    "SixTrack.C74_dropped_violated",
    "SixTrack.C74_default_violated",
    "SixTrack.C74_select_c",
    "SixTrack.C74_select_cxx_violated",
    "SixTrack.C74_none_asked",
    "SixTrack.C74_ranges_refused"
   ],
   "note": "Proved whenever one of the asked objects is a particle set (C74_chosen_partial, with offsets, sizes, totals and tight ranges of the chosen sets). False of the code otherwise: indices that are no sets are dropped with success (C74_dropped_violated), the default choice counts no particles (C74_default_violated), and selectParticleSet on a job with C++ buffers takes the output buffer for the particles buffer, clears it and fails, or reads freed memory (C74_select_cxx_violated). Not modelled: passing the job's own index vector, which is cleared before it is read."
  },
  {
   "property": "C75",
   "status": "partial",
   "theorems": [
    "SixTrack.C75_prepare",
    "SixTrack.C75_stored_partial",
    "SixTrack.C75_shift_partial",
    "SixTrack.C75_shift_back_partial",
    "SixTrack.C75_compare",
    "SixTrack.C75_compare_all_partial",
    "SixTrack.C75_saturated_violated",
    "SixTrack.C75_min_offset_violated",
    "SixTrack.C75_cleared_violated",
    "SixTrack.C75_compare_self_violated",
    "SixTrack.C75_empty_violated",
    "SixTrack.C75_compare_all",
    "SixTrack.C75_store_all",
    "SixTrack.C75_shift_all"
   ],
   "note": "Proved: preparing, storing and restoring (C75_prepare, C75_stored_partial, for non-empty buffers), moving within the address space (C75_shift_partial, C75_shift_back_partial), comparing (C75_compare, C75_compare_all_partial). False of the code: offsets below an address make it null and the record stuck, the smallest offset is undefined, cleared records keep their number of particles, a buffer with foreign objects differs from itself, and an empty buffer is prepared but cannot be stored (C75_*_violated)."
  },
  {
   "property": "C76",
   "status": "partial",
   "theorems": [
    "SixTrack.C76_until",
    "SixTrack.C76_line",
    "SixTrack.C76_elem_by_elem_partial",
    "SixTrack.C76_chosen",
    "SixTrack.C76_refused",
    "SixTrack.C76_not_a_set_violated",
    "SixTrack.C76_turns_violated"
   ],
   "note": "trackUntil/trackLine/trackElemByElem of the CPU job: per-particle result, untouched sets, monitor records and status. False for an object that is no set (success reported) and for 2^63 turns or more; element-by-element limited as in C33."
  },
  {
   "property": "C77",
   "status": "partial",
   "theorems": [
    "SixTrack.C77_until",
    "SixTrack.C77_elem_by_elem",
    "SixTrack.C77_line",
    "SixTrack.C77_refused",
    "SixTrack.C77_turns_refused",
    "SixTrack.C77_line_refused",
    "SixTrack.C77_launch_partial",
    "SixTrack.C77_line_end_violated",
    "SixTrack.C77_set_index_violated",
    "SixTrack.C77_remap_violated",
    "SixTrack.C77_config_violated"
   ],
   "note": "Debug kernels equal plain kernels for legal arguments, refused arguments are named exactly, launches collect the status. False: line end, set index, configuration index and remapping are used before or without being tested. Work-items are sequential."
  },
  {
   "property": "C78",
   "status": "partial",
   "theorems": [
    "SixTrack.C78_total",
    "SixTrack.C78_numbering",
    "SixTrack.C78_order",
    "SixTrack.C78_launch_partial",
    "SixTrack.C78_stride_violated",
    "SixTrack.C78_stride_partial"
   ],
   "note": "Thread numbers are a bijection and the total is right; the function named stride overflows at 2^32 threads. Threads run one after another in C78_launch_partial."
  },
  {
   "property": "C79",
   "status": "partial",
   "theorems": [
    "SixTrack.C79_nodes",
    "SixTrack.C79_lookup",
    "SixTrack.C79_listing",
    "SixTrack.C79_append",
    "SixTrack.C79_new_ids_partial",
    "SixTrack.C79_given_platform_violated",
    "SixTrack.C79_duplicate_violated",
    "SixTrack.C79_selected",
    "SixTrack.C79_default",
    "SixTrack.C79_select",
    "SixTrack.C79_change_partial",
    "SixTrack.C79_unselect",
    "SixTrack.C79_flag_violated",
    "SixTrack.C79_default_flag_violated",
    "SixTrack.C79_again_violated",
    "SixTrack.C79_long_violated",
    "SixTrack.C79_clear_violated",
    "SixTrack.C79_cuda_change_violated",
    "SixTrack.C79_cuda_refused_violated",
    "SixTrack.C79_cuda_broken",
    "SixTrack.C79_default_known"
   ],
   "note": "Invariant over all sequences of calls (C79_nodes), lookup by ids and text, listing, adding, default node, selecting, unselecting proved. Not as stated: flags of the old selected/default node stay set, selecting the selected node fails, ids of more than 16 characters can not be selected and the attempt drops the selection, clear leaves a dangling default pointer and the old text, a platform id given without device id is lost, negative device ids may be given twice, and the CUDA controller reports changes the wrong way round (all proved as _violated)."
  },
  {
   "property": "C80",
   "status": "partial",
   "theorems": [
    "SixTrack.C80_flat",
    "SixTrack.C80_copy_from",
    "SixTrack.C80_copy_to",
    "SixTrack.C80_copy_refused",
    "SixTrack.C80_copy_assert_violated",
    "SixTrack.C80_until",
    "SixTrack.C80_elem_by_elem",
    "SixTrack.C80_line",
    "SixTrack.C80_tracked",
    "SixTrack.C80_debug",
    "SixTrack.C80_refused",
    "SixTrack.C80_set_index_refused",
    "SixTrack.C80_set_index_violated",
    "SixTrack.C80_next_index_violated",
    "SixTrack.C80_not_a_set_violated",
    "SixTrack.C80_line_end_violated"
   ],
   "note": "Holds for every object of the buffer (C80_until, C80_elem_by_elem, C80_line, C80_debug, C80_tracked); fails for wrong object indices and objects that are no particle sets (C80_*_violated)."
  },
  {
   "property": "C81",
   "status": "partial",
   "theorems": [
    "SixTrack.C81_invariant",
    "SixTrack.C81_invariant_start",
    "SixTrack.C81_raw_succeeds",
    "SixTrack.C81_buffer_succeeds",
    "SixTrack.C81_raw_needs_remap_kernel",
    "SixTrack.C81_raw_sent",
    "SixTrack.C81_buffer_sent",
    "SixTrack.C81_place_partial",
    "SixTrack.C81_made",
    "SixTrack.C81_raw_back_partial",
    "SixTrack.C81_buffer_back_partial",
    "SixTrack.C81_stale_raw_violated",
    "SixTrack.C81_stale_buffer_violated",
    "SixTrack.C81_raw_after_buffer_violated",
    "SixTrack.C81_silent_remap_violated",
    "SixTrack.C81_no_memory",
    "SixTrack.C81_forgets_violated",
    "SixTrack.C81_update_partial",
    "SixTrack.C81_update_violated",
    "SixTrack.C81_again",
    "SixTrack.C81_receive_fails",
    "SixTrack.C81_receive_size",
    "SixTrack.C81_made_fails",
    "SixTrack.C81_update_nothing"
   ],
   "note": "Invariant, success conditions and what is on the device after a send are proved outright. Receiving restores the data if the argument refers to where they came from; C81_place_partial says exactly when it does. False of the code in general: stale references after sending other data (C81_stale_raw_violated, C81_stale_buffer_violated, C81_raw_after_buffer_violated), silent failures to remap (C81_silent_remap_violated), lost references (C81_forgets_violated), and wrap-around in the test of a region (C81_update_violated)."
  },
  {
   "property": "C82",
   "status": "partial",
   "theorems": [
    "SixTrack.C82_append",
    "SixTrack.C82_id",
    "SixTrack.C82_ids_differ",
    "SixTrack.C82_number",
    "SixTrack.C82_find",
    "SixTrack.C82_find_violated",
    "SixTrack.C82_full_violated",
    "SixTrack.C82_debug_switch_partial",
    "SixTrack.C82_debug_unset_violated",
    "SixTrack.C82_clear_violated",
    "SixTrack.C82_select",
    "SixTrack.C82_select_violated",
    "SixTrack.C82_no_remap"
   ],
   "note": "Ids, counting and finding by name are proved for all sequences of operations, and when the debug mode can be switched for controllers whose debug kernel id has been set. False of the code: finding a second kernel of one name (C82_find_violated), the bound on the number of kernels (C82_full_violated), the debug mode before the id is set (C82_debug_unset_violated), clearing (C82_clear_violated), selecting a node again (C82_select_violated)."
  },
  {
   "property": "C83",
   "status": "partial",
   "theorems": [
    "SixTrack.C83_equal",
    "SixTrack.C83_sign",
    "SixTrack.C83_order",
    "SixTrack.C83_nan_violated",
    "SixTrack.C83_int64",
    "SixTrack.C83_range_equal",
    "SixTrack.C83_range_first",
    "SixTrack.C83_range_past",
    "SixTrack.C83_close",
    "SixTrack.C83_close_sign",
    "SixTrack.C83_close_mono",
    "SixTrack.C83_close_zero",
    "SixTrack.C83_infinite_violated",
    "SixTrack.C83_relative_violated",
    "SixTrack.C83_predicates",
    "SixTrack.C83_predicates_violated",
    "SixTrack.C83_cxx_violated",
    "SixTrack.C83_relative_infinite",
    "SixTrack.C83_cxx_close",
    "SixTrack.C83_cxx_tol_violated"
   ],
   "note": "Proved for numbers that are not NaN, for C; the C++ result has the opposite sign (C83_cxx_violated), NaN, infinities with a tolerance and relative tolerances break the statement (C83_nan_violated, C83_infinite_violated, C83_relative_violated, C83_predicates_violated)."
  },
  {
   "property": "C84",
   "status": "partial",
   "theorems": [
    "SixTrack.C84_exact_partial",
    "SixTrack.C84_order_violated",
    "SixTrack.C84_minus_zero_violated",
    "SixTrack.C84_nan_exact_violated",
    "SixTrack.C84_empty_violated",
    "SixTrack.C84_structure",
    "SixTrack.C84_buffers",
    "SixTrack.C84_threshold_partial",
    "SixTrack.C84_exact_threshold",
    "SixTrack.C84_threshold_monotone",
    "SixTrack.C84_threshold_symmetric",
    "SixTrack.C84_first_index",
    "SixTrack.C84_nan_violated",
    "SixTrack.C84_nan_threshold_violated",
    "SixTrack.C84_negative_threshold_violated",
    "SixTrack.C84_max_difference_partial",
    "SixTrack.C84_max_nan_violated",
    "SixTrack.C84_max_int_partial",
    "SixTrack.C84_max_int_violated",
    "SixTrack.C84_max_set",
    "SixTrack.C84_max_indices_violated",
    "SixTrack.C84_max_buffers_violated",
    "SixTrack.C84_max_overwrites_violated",
    "SixTrack.C84_printed_index_violated",
    "SixTrack.C84_words",
    "SixTrack.C84_short_violated",
    "SixTrack.C84_missing_violated",
    "SixTrack.C84_max_room_violated"
   ],
   "note": "Proved: exact comparison is defined and zero iff all 21 attributes have the same bytes (C84_exact_partial, C84_structure, C84_buffers); threshold comparison zero iff no difference is a number above the threshold (C84_threshold_partial), symmetric, monotone, implied by the exact one, first index; largest difference and its first index for reals without NaN and integers without overflow, written to the first particle (C84_max_*). False of the code: sign by bytes, zero/minus zero, NaN, empty sets, NaN and negative thresholds, NaN and overflow in the largest difference, no index array, buffers overwrite the left operand, printed indices."
  },
  {
   "property": "C85",
   "status": "partial",
   "theorems": [
    "SixTrack.C85_exact_partial",
    "SixTrack.C85_threshold_partial",
    "SixTrack.C85_sign",
    "SixTrack.C85_line_partial",
    "SixTrack.C85_line_first",
    "SixTrack.C85_line_violated",
    "SixTrack.C85_qgauss_violated",
    "SixTrack.C85_missing_violated",
    "SixTrack.C85_space_charge_violated",
    "SixTrack.C85_drift_exact_violated",
    "SixTrack.C85_nan_violated",
    "SixTrack.C85_infinite_violated",
    "SixTrack.C85_null_violated",
    "SixTrack.C85_no_data_violated",
    "SixTrack.C85_negative_threshold_violated",
    "SixTrack.C85_cavity",
    "SixTrack.C85_threshold_sign_violated",
    "SixTrack.C85_negative_edge_violated"
   ],
   "note": "False of the code in several ways, each proved with a witness: attributes and kinds that are forgotten, thresholds that are not used, reversed signs, NaN, infinities, null pointers, empty lines and lines of different lengths. For the other kinds and for numbers without NaN the comparisons are proved to say exactly whether the elements agree, exactly or within a threshold, to be antisymmetric and to end."
  },
  {
   "property": "C86",
   "status": "partial",
   "theorems": [
    "SixTrack.C86_lists",
    "SixTrack.C86_add",
    "SixTrack.C86_add_again",
    "SixTrack.C86_find",
    "SixTrack.C86_find_none",
    "SixTrack.C86_ids",
    "SixTrack.C86_remove_violated",
    "SixTrack.C86_remove_partial",
    "SixTrack.C86_remove_last",
    "SixTrack.C86_remove_undefined_violated",
    "SixTrack.C86_remove_index",
    "SixTrack.C86_ranges_violated",
    "SixTrack.C86_pairs",
    "SixTrack.C86_assign_all",
    "SixTrack.C86_assign_stops",
    "SixTrack.C86_no_buffer",
    "SixTrack.C86_illegal_violated",
    "SixTrack.C86_old_clear_violated",
    "SixTrack.C86_old_copy_violated"
   ],
   "note": "The property is false of the code: removing an item removes all items of its pair of buffers and is undefined without room for copies; ranges of items and keys are empty; items with illegal ids are accepted and block the assignment; the older job keeps its keys when cleared and loses them when copied. Proved: what adding, finding, listing and assigning do for every history, and exactly what removal does."
  },
  {
   "property": "C87",
   "status": "partial",
   "theorems": [
    "SixTrack.C87_history",
    "SixTrack.C87_add",
    "SixTrack.C87_remove",
    "SixTrack.C87_owned",
    "SixTrack.C87_capacity",
    "SixTrack.C87_reserve_violated",
    "SixTrack.C87_min_max",
    "SixTrack.C87_min_max_violated",
    "SixTrack.C87_push_partial",
    "SixTrack.C87_removed_violated",
    "SixTrack.C87_null_violated",
    "SixTrack.C87_device",
    "SixTrack.C87_device_add",
    "SixTrack.C87_device_remove_partial",
    "SixTrack.C87_device_remove_violated",
    "SixTrack.C87_device_null_violated"
   ],
   "note": "The property is false of the code: reserving never gives room; removed ids can be pushed and removed again with success while another buffer is stored; null pointers get an id; on devices, removal with an unknown id and a null pointer as first buffer are undefined. Proved for every history: which buffer an id leads to, counts, ownership and lifetime, and that device arguments belong to their buffers."
  },
  {
   "property": "C88",
   "status": "partial",
   "theorems": [
    "SixTrack.C88_copy",
    "SixTrack.C88_copy_destroy",
    "SixTrack.C88_copy_survives",
    "SixTrack.C88_copy_borrow_violated",
    "SixTrack.C88_move_violated",
    "SixTrack.C88_move_assign_violated",
    "SixTrack.C88_assign_other",
    "SixTrack.C88_assign_partial",
    "SixTrack.C88_assign_dangles_violated",
    "SixTrack.C88_assign_output",
    "SixTrack.C88_assign_lost_violated",
    "SixTrack.C88_assign_stored_violated",
    "SixTrack.C88_assign_ebe_violated",
    "SixTrack.C88_assign_kept_violated",
    "SixTrack.C88_old_copy_partial",
    "SixTrack.C88_old_copy_violated",
    "SixTrack.C88_old_copy_output_violated",
    "SixTrack.C88_old_move_copy_violated",
    "SixTrack.C88_old_move_partial",
    "SixTrack.C88_old_move_violated",
    "SixTrack.C88_old_move_assign_partial",
    "SixTrack.C88_old_clear",
    "SixTrack.C88_old_assign_partial",
    "SixTrack.C88_old_assign_stored_violated",
    "SixTrack.C88_old_assign_output_violated",
    "SixTrack.C88_old_assign_frees_partial",
    "SixTrack.C88_new",
    "SixTrack.C88_clear_particles",
    "SixTrack.C88_clear_output",
    "SixTrack.C88_old_copy_has_output",
    "SixTrack.C88_old_has_output_c"
   ],
   "note": "Proved for the copy constructor of TrackJobBaseNew, with destruction in either order (C88_copy, C88_copy_destroy, C88_copy_survives; a job which uses its own stored buffer excepted, C88_copy_borrow_violated). False for moves (undefined for every job), for assignment (dangling or lost output, stored buffers, assignments and element-by-element configuration not copied) and for TrackJobBase (device name, keys, uninitialised flag, user's output buffer, ownership); the _partial theorems say what remains true. Missing: assignment to a TrackJobBase which owns buffers."
  },
  {
   "property": "C89",
   "status": "partial",
   "theorems": [
    "SixTrack.C89_sets",
    "SixTrack.C89_succeeds",
    "SixTrack.C89_ready",
    "SixTrack.C89_ranges",
    "SixTrack.C89_new",
    "SixTrack.C89_output_added",
    "SixTrack.C89_fresh",
    "SixTrack.C89_make",
    "SixTrack.C89_refused",
    "SixTrack.C89_no_elements",
    "SixTrack.C89_select_partial",
    "SixTrack.C89_select_refused",
    "SixTrack.C89_select_violated",
    "SixTrack.C89_one_violated",
    "SixTrack.C89_uncounted_violated",
    "SixTrack.C89_none_left_violated",
    "SixTrack.C89_own_violated",
    "SixTrack.C89_drops_violated"
   ],
   "note": "Proved for sets that have particles and usable lattices: which sets are held, when a reset succeeds, what is ready, what is added to the output, that nothing depends on the past of the job, that making a job with a list of indices is the same. False: resetting drops stored buffers and assignments, the constructors with one index, the counts of the default set, lists without a valid index, the own output buffer as argument, selecting a set with C++ buffers (see the _violated theorems)."
  },
  {
   "property": "C90",
   "status": "partial",
   "theorems": [
    "SixTrack.C90_sound",
    "SixTrack.C90_add_code",
    "SixTrack.C90_add_nothing",
    "SixTrack.C90_add_file",
    "SixTrack.C90_defaults",
    "SixTrack.C90_kernel_program",
    "SixTrack.C90_path",
    "SixTrack.C90_compile",
    "SixTrack.C90_enable",
    "SixTrack.C90_enable_refused",
    "SixTrack.C90_find_kernel",
    "SixTrack.C90_stable",
    "SixTrack.C90_find_node",
    "SixTrack.C90_available",
    "SixTrack.C90_selected_id",
    "SixTrack.C90_valid_id",
    "SixTrack.C90_default",
    "SixTrack.C90_select",
    "SixTrack.C90_once",
    "SixTrack.C90_select_at",
    "SixTrack.C90_clear",
    "SixTrack.C90_make",
    "SixTrack.C90_flags",
    "SixTrack.C90_flag_violated",
    "SixTrack.C90_enable_violated",
    "SixTrack.C90_select_fails_violated",
    "SixTrack.C90_select_args_violated",
    "SixTrack.C90_debug_violated",
    "SixTrack.C90_init_violated",
    "SixTrack.C90_inc_dir_violated",
    "SixTrack.C90_inc_dir_unused_violated",
    "SixTrack.C90_new_on_str",
    "SixTrack.C90_new_violated",
    "SixTrack.C90_make_on",
    "SixTrack.C90_new_on_id"
   ],
   "note": "Proved: consistency of programs and kernels after any calls, stable ids, adding, compiling, enabling and finding, when a selection succeeds and what it gives, clearing, new contexts, flags, C functions with a valid id or a text. False: selections that fail, arguments after selecting by id, enabling twice, default programs in debug mode, missing files, changing a flag, the include directory, the C function without an id (see the _violated theorems)."
  },
  {
   "property": "C91",
   "status": "partial",
   "theorems": [
    "SixTrack.C91_assign",
    "SixTrack.C91_index_violated",
    "SixTrack.C91_id_violated",
    "SixTrack.C91_read",
    "SixTrack.C91_confusion_violated",
    "SixTrack.C91_reset",
    "SixTrack.C91_reset_violated",
    "SixTrack.C91_sound",
    "SixTrack.C91_round",
    "SixTrack.C91_wrap_violated",
    "SixTrack.C91_group_size",
    "SixTrack.C91_run",
    "SixTrack.C91_computed_violated",
    "SixTrack.C91_computed_partial",
    "SixTrack.C91_times",
    "SixTrack.C91_max_violated",
    "SixTrack.C91_last_violated",
    "SixTrack.C91_elapsed",
    "SixTrack.C91_prepare",
    "SixTrack.C91_evaluate",
    "SixTrack.C91_flags_partial",
    "SixTrack.C91_flags_violated",
    "SixTrack.C91_set_violated",
    "SixTrack.C91_new_record",
    "SixTrack.C91_exec_of"
   ],
   "note": "Proved: assigning, reading and resetting arguments of kernels that are there, rounding of work items below 2^64, sizes of groups, launches, times, preparing and evaluating status flags, flags without a stored status. False: bad ids and indices, pointers to other arguments, resetting values, the number computed beforehand without a size of groups, numbers near 2^64, the largest time, flags with a stored status (see the _violated theorems)."
  },
  {
   "property": "C92",
   "status": "partial",
   "theorems": [
    "SixTrack.C92_reserve",
    "SixTrack.C92_reserve_fails",
    "SixTrack.C92_free",
    "SixTrack.C92_make_partial",
    "SixTrack.C92_make_overflow",
    "SixTrack.C92_make_violated",
    "SixTrack.C92_make_open_violated",
    "SixTrack.C92_no_platform_violated",
    "SixTrack.C92_print",
    "SixTrack.C92_id_text",
    "SixTrack.C92_id_text_violated",
    "SixTrack.C92_print_to_str",
    "SixTrack.C92_print_to_str_partial",
    "SixTrack.C92_print_to_str_violated",
    "SixTrack.C92_print_nothing",
    "SixTrack.C92_valid"
   ],
   "note": "Proved: reserving (with and without memory), freeing, making with a name as long as the platform, printing, printing to an array with room for the NUL. False: making with other lengths (overflow, no NUL) or without a platform; printing to an array that just holds the text; ids of more than 15 characters."
  },
  {
   "property": "C93",
   "status": "partial",
   "theorems": [
    "SixTrack.C93_all",
    "SixTrack.C93_available",
    "SixTrack.C93_list",
    "SixTrack.C93_no_list",
    "SixTrack.C93_texts",
    "SixTrack.C93_choice",
    "SixTrack.C93_huge_violated",
    "SixTrack.C93_garbage_violated",
    "SixTrack.C93_ids",
    "SixTrack.C93_print_partial",
    "SixTrack.C93_print_full_violated",
    "SixTrack.C93_print_long_violated",
    "SixTrack.C93_platform_violated",
    "SixTrack.C93_empty_name_violated",
    "SixTrack.C93_no_name_violated"
   ],
   "note": "Proved for lists of ids below 2^31, all platforms and devices, and printed texts of less than 2048 characters; false of the code: huge ids are undefined, garbage is accepted, a platform without devices fails an assertion, an empty variable name gives no nodes, a device without a name has no id in its description, and printed texts of 2048 characters are read behind their end."
  },
  {
   "property": "C94",
   "status": "partial",
   "theorems": [
    "SixTrack.C94_write",
    "SixTrack.C94_round_trip",
    "SixTrack.C94_success",
    "SixTrack.C94_read_success",
    "SixTrack.C94_raw_success",
    "SixTrack.C94_new_raw",
    "SixTrack.C94_new_empty",
    "SixTrack.C94_regions_refused",
    "SixTrack.C94_attach_refused",
    "SixTrack.C94_refused",
    "SixTrack.C94_small_violated",
    "SixTrack.C94_debug",
    "SixTrack.C94_unseen_violated",
    "SixTrack.C94_by_id_violated",
    "SixTrack.C94_new_size",
    "SixTrack.C94_new_buf",
    "SixTrack.C94_no_memory_violated",
    "SixTrack.C94_raw",
    "SixTrack.C94_raw_refused",
    "SixTrack.C94_regions",
    "SixTrack.C94_regions_inside",
    "SixTrack.C94_regions_violated",
    "SixTrack.C94_attach",
    "SixTrack.C94_attach_empty"
   ],
   "note": "Writing and reading back buffers, raw memory and regions are proved, for OpenCL that does what it is asked for. False of the code: a remapping that fails is not noticed without the debugging kernel (C94_unseen_violated), nothing can be written if the node was selected by id in debug mode (C94_by_id_violated), a buffer without room for the whole argument cannot be read back (C94_small_violated), a failing update has written earlier regions (C94_regions_violated), and an argument without memory has a size (C94_no_memory_violated)."
  },
  {
   "property": "C95",
   "status": "partial",
   "theorems": [
    "SixTrack.C95_until",
    "SixTrack.C95_until_set",
    "SixTrack.C95_line",
    "SixTrack.C95_line_set",
    "SixTrack.C95_elem",
    "SixTrack.C95_elem_set_partial",
    "SixTrack.C95_monitors",
    "SixTrack.C95_elem_out",
    "SixTrack.C95_clear",
    "SixTrack.C95_fetch",
    "SixTrack.C95_addresses_partial",
    "SixTrack.C95_slot_all",
    "SixTrack.C95_slot_all_refused",
    "SixTrack.C95_flags_all",
    "SixTrack.C95_all_without_remap",
    "SixTrack.C95_set_failed",
    "SixTrack.C95_turn",
    "SixTrack.C95_particles",
    "SixTrack.C95_set",
    "SixTrack.C95_elements",
    "SixTrack.C95_output",
    "SixTrack.C95_config",
    "SixTrack.C95_config_index",
    "SixTrack.C95_addr_buffer",
    "SixTrack.C95_slot",
    "SixTrack.C95_flags",
    "SixTrack.C95_assign_refused",
    "SixTrack.C95_choose",
    "SixTrack.C95_atomic_violated",
    "SixTrack.C95_no_node_violated",
    "SixTrack.C95_addr_buffer_violated",
    "SixTrack.C95_unset_violated",
    "SixTrack.C95_line_id_violated",
    "SixTrack.C95_whole",
    "SixTrack.C95_no_node",
    "SixTrack.C95_too_few",
    "SixTrack.C95_debug_refused",
    "SixTrack.C95_addresses_refused",
    "SixTrack.C95_stale_violated",
    "SixTrack.C95_items_violated",
    "SixTrack.C95_slots_violated",
    "SixTrack.C95_unset_addr_violated"
   ],
   "note": "Proved for contexts with a kernel for every task in both modes. False of the code and proved so: a set that is not restored is tracked again (C95_stale_violated), the number of work items of tracking a set element by element (C95_items_violated; C95_elem_set_partial), the slot size of the source of addresses (C95_slots_violated; C95_addresses_partial), failed assignments that change some kernels, successes without a node, and ids that are read before they are written."
  },
  {
   "property": "C96",
   "status": "partial",
   "theorems": [
    "SixTrack.C96_out_of_range",
    "SixTrack.C96_default_violated",
    "SixTrack.C96_missing_violated",
    "SixTrack.C96_members",
    "SixTrack.C96_kernels_no_node",
    "SixTrack.C96_kernels_skip",
    "SixTrack.C96_kernels_stop",
    "SixTrack.C96_programs",
    "SixTrack.C96_at",
    "SixTrack.C96_on",
    "SixTrack.C96_str",
    "SixTrack.C96_id_partial",
    "SixTrack.C96_id_violated",
    "SixTrack.C96_names",
    "SixTrack.C96_options",
    "SixTrack.C96_select",
    "SixTrack.C96_select_id_violated",
    "SixTrack.C96_select_config_violated",
    "SixTrack.C96_opt",
    "SixTrack.C96_select_amd",
    "SixTrack.C96_debug",
    "SixTrack.C96_beam_beam_partial",
    "SixTrack.C96_beam_beam_violated",
    "SixTrack.C96_select_missing_violated"
   ],
   "note": "C96_names, C96_options, C96_programs, C96_at, C96_on, C96_str, C96_out_of_range, C96_select, C96_select_amd, C96_opt and C96_debug hold as stated. C96_id_partial (nodes of AMD only) and C96_beam_beam_partial (flags not there yet) are the parts that hold of false statements; the violations are proved: C96_id_violated, C96_default_violated, C96_missing_violated, C96_select_id_violated, C96_select_config_violated, C96_select_missing_violated, C96_beam_beam_violated."
  },
  {
   "property": "C97",
   "status": "partial",
   "theorems": [
    "SixTrack.C97_track",
    "SixTrack.C97_line",
    "SixTrack.C97_elem_partial",
    "SixTrack.C97_again",
    "SixTrack.C97_no_sets",
    "SixTrack.C97_elem_violated",
    "SixTrack.C97_order_violated",
    "SixTrack.C97_no_node_violated",
    "SixTrack.C97_no_node_prepare",
    "SixTrack.C97_no_node_reset_violated",
    "SixTrack.C97_output_part",
    "SixTrack.C97_reset_output",
    "SixTrack.C97_output_fails",
    "SixTrack.C97_no_output",
    "SixTrack.C97_reset_fails",
    "SixTrack.C97_particles_partial",
    "SixTrack.C97_particles_status",
    "SixTrack.C97_particles_violated",
    "SixTrack.C97_particles_null",
    "SixTrack.C97_elements",
    "SixTrack.C97_output",
    "SixTrack.C97_monitors",
    "SixTrack.C97_monitors_refused",
    "SixTrack.C97_ebe_partial",
    "SixTrack.C97_reset_partial",
    "SixTrack.C97_reset_track",
    "SixTrack.C97_required",
    "SixTrack.C97_refused",
    "SixTrack.C97_ebe_violated",
    "SixTrack.C97_stale_violated"
   ],
   "note": "Tracking until a turn and along a part of the beam line proved for all sets; element by element only if all sets have as many particles as the selected one (violated otherwise). Particles that do not reach the device, and failed launches for the output of tracking element by element, go unnoticed (violated). Resets with and without output proved as a whole; with output not in debug mode. Without a node a reset is a success though nothing can be tracked (C97_no_node_reset_violated)."
  },
  {
   "property": "C98",
   "status": "partial",
   "theorems": [
    "SixTrack.C98_collect",
    "SixTrack.C98_push",
    "SixTrack.C98_round_trip",
    "SixTrack.C98_bits",
    "SixTrack.C98_push_all_violated",
    "SixTrack.C98_flags",
    "SixTrack.C98_named",
    "SixTrack.C98_silent_violated",
    "SixTrack.C98_grown_violated",
    "SixTrack.C98_cleared",
    "SixTrack.C98_fetch",
    "SixTrack.C98_fetch_fails",
    "SixTrack.C98_stored_push",
    "SixTrack.C98_stored_collect",
    "SixTrack.C98_stored_gone",
    "SixTrack.C98_stored_remove",
    "SixTrack.C98_stored_remove_violated",
    "SixTrack.C98_stored_add",
    "SixTrack.C98_stored_violated"
   ],
   "note": "Collecting, pushing, coming back, flags, fetching of addresses and stored buffers proved for all flags and contents, for buffers of different memory. Reporting of failures is false of the code: C98_silent_violated, C98_grown_violated, C98_push_all_violated, C98_stored_violated."
  },
  {
   "property": "C99",
   "status": "partial",
   "theorems": [
    "SixTrack.C99_lookup",
    "SixTrack.C99_perform",
    "SixTrack.C99_refused",
    "SixTrack.C99_assign_all",
    "SixTrack.C99_stops",
    "SixTrack.C99_fails",
    "SixTrack.C99_empty",
    "SixTrack.C99_raw_violated"
   ],
   "note": "C99_lookup, C99_perform, C99_refused, C99_assign_all, C99_stops, C99_fails, C99_empty for slots of the same size (C95_slots_violated). False: an item about an id that is no buffer stops the assignments of all later pairs (C99_raw_violated)."
  },
  {
   "property": "C100",
   "status": "partial",
   "theorems": [
    "SixTrack.C100_length",
    "SixTrack.C100_assign_partial",
    "SixTrack.C100_append",
    "SixTrack.C100_null",
    "SixTrack.C100_clear",
    "SixTrack.C100_sync_same",
    "SixTrack.C100_sync",
    "SixTrack.C100_history",
    "SixTrack.C100_add_partial",
    "SixTrack.C100_new_from",
    "SixTrack.C100_detailed",
    "SixTrack.C100_slots",
    "SixTrack.C100_add_violated",
    "SixTrack.C100_append_violated",
    "SixTrack.C100_copy_violated",
    "SixTrack.C100_assign_violated",
    "SixTrack.C100_reverse_violated",
    "SixTrack.C100_assert_violated"
   ],
   "note": "Proved for all sequences of operations on objects with a capacity above 1. Violated: a string one character too long is accepted without its end being marked, the empty string is refused by assign if the capacity is 1, a copy has a larger capacity than its original, and the assertions on the length fail for 1024 or more characters."
  },
  {
   "property": "C101",
   "status": "partial",
   "theorems": [
    "SixTrack.C101_update",
    "SixTrack.C101_every_item",
    "SixTrack.C101_refused",
    "SixTrack.C101_total",
    "SixTrack.C101_remap",
    "SixTrack.C101_history",
    "SixTrack.C101_flag_violated",
    "SixTrack.C101_stale_violated",
    "SixTrack.C101_stale_items_violated",
    "SixTrack.C101_wide_violated",
    "SixTrack.C101_failure_violated",
    "SixTrack.C101_total_violated",
    "SixTrack.C101_limit_violated",
    "SixTrack.C101_total_none",
    "SixTrack.C101_cleared"
   ],
   "note": "Updates proved for all sizes whose blocks fit in 32 bits. Violated: the configuration does not notice that its sizes have changed since the last update, 2^32 blocks are accepted as none, an update that fails may change the blocks, totals wrap at 2^32, and limits of the device are not looked at."
  },
  {
   "property": "C102",
   "status": "partial",
   "theorems": [
    "SixTrack.C102_prepare",
    "SixTrack.C102_refused",
    "SixTrack.C102_track",
    "SixTrack.C102_assign",
    "SixTrack.C102_not_ready",
    "SixTrack.C102_config_partial",
    "SixTrack.C102_share",
    "SixTrack.C102_threads",
    "SixTrack.C102_until_tracks_partial",
    "SixTrack.C102_threads_violated",
    "SixTrack.C102_sets_violated",
    "SixTrack.C102_config_debug_violated",
    "SixTrack.C102_turn_violated",
    "SixTrack.C102_line_violated",
    "SixTrack.C102_no_node_violated",
    "SixTrack.C102_block_violated",
    "SixTrack.C102_bytes_violated",
    "SixTrack.C102_num_sets",
    "SixTrack.C102_assign_single",
    "SixTrack.C102_set_kernel",
    "SixTrack.C102_add_refused",
    "SixTrack.C102_prepare_fails",
    "SixTrack.C102_assign_lost_violated",
    "SixTrack.C102_no_conf_violated",
    "SixTrack.C102_no_sets_violated"
   ],
   "note": "Threads run one after another (as in C78) and what kernels do on the device is a parameter. False of the code: which configuration trackLine and assignConfig use, the inverted debug branch, particle sets other than the first, see the _violated theorems."
  },
  {
   "property": "C103",
   "status": "partial",
   "theorems": [
    "SixTrack.C103_init",
    "SixTrack.C103_particles_partial",
    "SixTrack.C103_refused",
    "SixTrack.C103_init_succeeds",
    "SixTrack.C103_reset_partial",
    "SixTrack.C103_reset_output",
    "SixTrack.C103_reset_succeeds",
    "SixTrack.C103_particles_violated",
    "SixTrack.C103_reset_violated",
    "SixTrack.C103_ranges_violated",
    "SixTrack.C103_sets_violated",
    "SixTrack.C103_both_violated"
   ],
   "note": "Proved of setting up; of a reset if there is no output or everything can be sent. False of the code: particles that cannot be sent are no failure, a reset with output forgets earlier failures, ranges are those of the sets before the choice, missing sets are no failure, and two statuses are combined with a logical and (theorems ending in _violated)."
  },
  {
   "property": "C104",
   "status": "partial",
   "theorems": [
    "SixTrack.C104_stores_partial",
    "SixTrack.C104_same",
    "SixTrack.C104_reported",
    "SixTrack.C104_others_kept",
    "SixTrack.C104_one_works",
    "SixTrack.C104_ends",
    "SixTrack.C104_more_records_violated",
    "SixTrack.C104_fewer_records_violated",
    "SixTrack.C104_debug_differs_violated"
   ],
   "note": "Proved for all schedules if there are not more records than sets. False of the code: the kernel counts the records, so that it reads behind the sets or leaves sets out with success; the debug kernel stops a thread at an object that is no record. One store is one step; what the kernels for one thread do is not modelled here."
  },
  {
   "property": "C105",
   "status": "partial",
   "theorems": [
    "SixTrack.C105_debug_success",
    "SixTrack.C105_debug_failure",
    "SixTrack.C105_plain",
    "SixTrack.C105_refused",
    "SixTrack.C105_no_register",
    "SixTrack.C105_direct_refused",
    "SixTrack.C105_asked",
    "SixTrack.C105_throws",
    "SixTrack.C105_remapped",
    "SixTrack.C105_register_left",
    "SixTrack.C105_register_kept",
    "SixTrack.C105_register_read",
    "SixTrack.C105_register_refused",
    "SixTrack.C105_unread_answer",
    "SixTrack.C105_plain_reports_violated",
    "SixTrack.C105_unread_violated",
    "SixTrack.C105_register_violated"
   ],
   "note": "Proved for the debug mode and for asking. False of the code: outside the debug mode a failed remapping is a success; a register that cannot be read makes a remapping fail that was done; asking overwrites the register with 1 or 2. That a failing kernel leaves the bytes alone is assumed, and what remapping does to bytes is a parameter."
  },
  {
   "property": "C106",
   "status": "partial",
   "theorems": [
    "SixTrack.C106_found",
    "SixTrack.C106_ids",
    "SixTrack.C106_numbers",
    "SixTrack.C106_one_type",
    "SixTrack.C106_outside",
    "SixTrack.C106_behind",
    "SixTrack.C106_end_violated",
    "SixTrack.C106_index_violated"
   ],
   "note": "Proved for all indices but the number of objects itself. False of the code: that index is accepted and the words behind the object index are taken for an object. sizeof is a parameter; a null buffer is not modelled."
  }
 ]
}