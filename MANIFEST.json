{
 "claims": [
  {
   "property": "C01",
   "status": "partial",
   "theorems": [
    "Ptusa.Mem.C01_blocks_disjoint_violated",
    "Ptusa.Mem.C01_blocks_disjoint_partial",
    "Ptusa.Mem.C01_refused_consumes_nothing",
    "Ptusa.Mem.C01_fitting_request_granted",
    "Ptusa.Mem.C01_block_inside_device_violated",
    "Ptusa.Mem.C01_params_blocks_inside_device"
   ],
   "note": "False of the code for requests near 4 GiB (32-bit wrap in the capacity check) and at device level (area start added twice); proved for all other histories."
  },
  {
   "property": "C02",
   "status": "partial",
   "theorems": [
    "Ptusa.Mem.C02_write_in_block_violated",
    "Ptusa.Mem.C02_write_in_block_partial",
    "Ptusa.Mem.C02_other_blocks_untouched_partial",
    "Ptusa.Mem.C02_outside_is_refused",
    "Ptusa.Mem.C02_write_read"
   ],
   "note": "False of the code when start_pos + count wraps 32 bits; proved for every non-wrapping call, refusal and write/read round trip included."
  },
  {
   "property": "C03",
   "status": "proved",
   "theorems": [
    "Ptusa.Params.C03_sets_disjoint",
    "Ptusa.Params.C03_other_sets_unaffected",
    "Ptusa.Params.C03_exhausted_set_not_persistent"
   ],
   "note": "Disjoint windows and independence (in memory and after restart) for every layout that fits and every history; the exhausted case is shown to lose data."
  },
  {
   "property": "C04",
   "status": "proved",
   "theorems": [
    "Ptusa.Params.C04_saved_values_survive_restarts",
    "Ptusa.Params.C04_spec_meaning"
   ],
   "note": "Refinement of RAM and EEPROM bytes to a two-table specification over arbitrary histories with restarts anywhere. Power loss inside one EEPROM write is not modelled."
  },
  {
   "property": "C05",
   "status": "partial",
   "theorems": [
    "Ptusa.Params.C05_reinit_crash_safe_violated",
    "Ptusa.Params.C05_reinit_crash_safe_partial",
    "Ptusa.Params.C05_layout_change_detected_violated"
   ],
   "note": "False of the code between the size write and the final save, and for layout changes of equal size; proved at the crash points before the first and after the last write."
  },
  {
   "property": "C06",
   "status": "partial",
   "theorems": [
    "Ptusa.Params.C06_valid_index_last_write",
    "Ptusa.Params.C06_invalid_index_reads_zero_violated",
    "Ptusa.Params.C06_invalid_index_reads_zero_partial",
    "Ptusa.Params.C06_invalid_index_changes_nothing"
   ],
   "note": "Valid indices proved; reading an invalid index after writing one returns the written value (shared writable stub), exact characterisation proved instead."
  },
  {
   "property": "C07",
   "status": "partial",
   "theorems": [
    "Ptusa.Time.C07_elapsed_exact_violated",
    "Ptusa.Time.C07_elapsed_exact_partial",
    "Ptusa.Time.C07_wrap_error_is_one_partial",
    "Ptusa.Time.C07_small_backward_jitter_tolerated"
   ],
   "note": "Exact without wrap; one millisecond too large after a wrap (violation); 32-bit and 64-bit counters."
  },
  {
   "property": "C08",
   "status": "partial",
   "theorems": [
    "Ptusa.CritErr.C08_list_is_set_partial",
    "Ptusa.CritErr.C08_any_error_iff_partial",
    "Ptusa.CritErr.C08_idempotent",
    "Ptusa.CritErr.C08_list_is_set_violated",
    "Ptusa.CritErr.C08_id_counts_active_partial"
   ],
   "note": "Proved for parameters below 2^32; the code keeps only the low 32 bits of the unsigned long parameter (violation). For such parameters the id also counts the changes of the set of active errors."
  },
  {
   "property": "C09",
   "status": "proved",
   "theorems": [
    "Ptusa.CritErr.C09_id_moves_iff_list_changes",
    "Ptusa.CritErr.C09_id_counts_changes",
    "Ptusa.CritErr.C09_client_view"
   ],
   "note": "Full: every history of calls with any 64-bit parameters."
  },
  {
   "property": "C10",
   "status": "proved",
   "theorems": [
    "Ptusa.Alarm.C10_alarm_follows_history",
    "Ptusa.Alarm.C10_never_dropped"
   ],
   "note": "Proved over all histories of the whole alarm manager (evaluations with arbitrary device states, arbitrary commands to arbitrary keys, message postings), against a history-only specification. Keys of registered elements are assumed distinct because commands address elements by key."
  },
  {
   "property": "C11",
   "status": "partial",
   "theorems": [
    "Ptusa.Alarm.C11_suppressed_hides_others_violated",
    "Ptusa.Alarm.C11_error_flag_partial",
    "Ptusa.Alarm.C11_noack_flag_partial",
    "Ptusa.Alarm.C11_flags_partial"
   ],
   "note": "The claim is false of the code: a suppressed device in error clears the shared flags set by devices registered before it (C11_suppressed_hides_others_violated). Proved: exact meaning of both flags for every list, and the claim as stated when no suppressed device is in error."
  },
  {
   "property": "C12",
   "status": "partial",
   "theorems": [
    "Ptusa.Alarm.C12_changed_list_changes_id_partial",
    "Ptusa.Alarm.C12_id_differs_partial",
    "Ptusa.Alarm.C12_command_changes_id",
    "Ptusa.Alarm.C12_parameter_reset_violated",
    "Ptusa.Alarm.C12_error_text_violated"
   ],
   "note": "Proved for alarm states, suppression marks and messages over all histories between evaluations. False for a reset of all parameters (clears suppression marks silently) and for the error texts of counters (C12_error_text_violated)."
  },
  {
   "property": "C13",
   "status": "partial",
   "theorems": [
    "Ptusa.Regulator.C13_within_limits_partial",
    "Ptusa.Regulator.C13_actuator_within_limits_partial",
    "Ptusa.Regulator.C13_percentage",
    "Ptusa.Regulator.C13_old_style_limits_ordered",
    "Ptusa.Regulator.C13_unchecked_limits_violated",
    "Ptusa.Regulator.C13_leaving_manual_violated",
    "Ptusa.Regulator.C13_nan_sticks_violated"
   ],
   "note": "Numbers are exact rationals plus nan. Proved over all histories with numeric inputs, except the first evaluation after manual mode. False of the code in three ways: that first evaluation outputs the manual value unlimited; a nan reading makes the output nan for ever; limits outside 0..100 can be stored through init_param and through the new-style command."
  },
  {
   "property": "C14",
   "status": "partial",
   "theorems": [
    "Ptusa.Regulator.C14_off_gives_rest",
    "Ptusa.Regulator.C14_off_completes_partial",
    "Ptusa.Regulator.C14_manual_off_never_completes_violated",
    "Ptusa.Regulator.C14_resume_keeps_state",
    "Ptusa.Regulator.C14_clean_start_partial",
    "Ptusa.Regulator.C14_stale_manual_violated"
   ],
   "note": "Proved for devices in automatic mode over all histories. False in two ways: in manual mode one operator 'off' is never completed by I/O evaluations; a regulator switched off in its own manual mode starts with the old manual value."
  },
  {
   "property": "C15",
   "status": "proved",
   "theorems": [
    "Ptusa.Operation.C15_follows_diagram",
    "Ptusa.Operation.C15_inapplicable_no_effect",
    "Ptusa.Operation.C15_commands_defined",
    "Ptusa.Operation.C15_only_commands_move",
    "Ptusa.Operation.C15_stop_is_final"
   ],
   "note": "proved: current state after any history = the diagram followed command by command; inapplicable commands change nothing; commands always defined; stop is left only by switching off; completing is never entered. Lua and clock answers universally quantified."
  },
  {
   "property": "C16",
   "status": "partial",
   "theorems": [
    "Ptusa.Operation.C16_only_current_active_partial",
    "Ptusa.Operation.C16_leaving_finalises_partial",
    "Ptusa.Operation.C16_others_untouched",
    "Ptusa.Operation.C16_evaluate_current_only",
    "Ptusa.Operation.C16_unpausing_violated"
   ],
   "note": "partial: every state other than the reported one is at rest and its steps finalised (via call log), except unpausing: operation::start leaves UNPAUSING without finalize (operation_mngr.cpp 170-172), shown by C16_unpausing_violated."
  },
  {
   "property": "C17",
   "status": "partial",
   "theorems": [
    "Ptusa.TechObj.C17_active_has_mode",
    "Ptusa.TechObj.C17_is_idle_iff_no_mode",
    "Ptusa.TechObj.C17_mode_iff_active_partial",
    "Ptusa.TechObj.C17_is_idle_partial",
    "Ptusa.TechObj.C17_violated_pause_of_idle"
   ],
   "note": "Full for \"not idle implies mode 1\" and for is_idle against modes; the converse fails when PAUSE/STOP is sent to an idle operation (violated theorem), proved for all other histories."
  },
  {
   "property": "C18",
   "status": "partial",
   "theorems": [
    "Ptusa.TechObj.C18_forbidden_is_refused",
    "Ptusa.TechObj.C18_never_together_partial",
    "Ptusa.TechObj.C18_violated_pause_then_on"
   ],
   "note": "Refusal proved in every state satisfying the object invariant; mutual exclusion proved for histories without PAUSE/STOP to operations that are off; such a history breaks the interlock (violated theorem)."
  },
  {
   "property": "C19",
   "status": "partial",
   "theorems": [
    "Ptusa.TechObj.C19_refused_changes_nothing",
    "Ptusa.TechObj.C19_positive_code_means_refused",
    "Ptusa.TechObj.C19_code_tells_reason_partial",
    "Ptusa.TechObj.C19_violated_off_with_negative_check",
    "Ptusa.TechObj.C19_violated_refused_with_code_zero",
    "Ptusa.TechObj.C19_violated_same_code"
   ],
   "note": "Full for \"refused for exactly these reasons, then nothing changes, code of the reason returned\"; code 0 iff performed and code uniqueness fail in corner cases (violated theorems), proved for documented results."
  },
  {
   "property": "C20",
   "status": "proved",
   "theorems": [
    "Ptusa.TechObj.C20_other_operations_keep_mode",
    "Ptusa.TechObj.C20_addressed_operation_changes"
   ],
   "note": "Proved for every number of operations and every reachable state."
  },
  {
   "property": "C21",
   "status": "proved",
   "theorems": [
    "Ptusa.TechObj.C21_decode_encode",
    "Ptusa.TechObj.C21_others_rejected",
    "Ptusa.TechObj.C21_unambiguous",
    "Ptusa.TechObj.C21_violated_user_command"
   ],
   "note": "Decode inverts encode, all other numbers rejected; user commands 1000+n and 2000+n coincide (violated theorem)."
  },
  {
   "property": "C22",
   "status": "proved",
   "theorems": [
    "Ptusa.Alarm.C22_bounded_unique",
    "Ptusa.Alarm.C22_numbers_never_reused",
    "Ptusa.Alarm.C22_post",
    "Ptusa.Alarm.C22_delete"
   ],
   "note": "Proved over all histories; the 32-bit overflow of the message counter is not modelled."
  },
  {
   "property": "C23",
   "status": "partial",
   "theorems": [
    "Ptusa.TechObj.C23_availability_partial",
    "Ptusa.TechObj.C23_counter_partial",
    "Ptusa.TechObj.C23_violated_counter_wraps"
   ],
   "note": "Proved for histories without PAUSE/STOP to operations that are off; otherwise the counter wraps (violated theorem)."
  },
  {
   "property": "C24",
   "status": "proved",
   "theorems": [
    "Ptusa.Operation.C24_request_selects",
    "Ptusa.Operation.C24_only_main",
    "Ptusa.Operation.C24_out_of_range",
    "Ptusa.Operation.C24_last_request",
    "Ptusa.Operation.C24_zero_duration",
    "Ptusa.Operation.C24_leaving"
   ],
   "note": "proved: request in range selects, is the only main step in use; out of range no effect; last request wins over any sequence; leaving leaves none. A zero-duration step is selected but not started (C24_zero_duration)."
  },
  {
   "property": "C25",
   "status": "partial",
   "theorems": [
    "Ptusa.Operation.C25_switch_on_partial",
    "Ptusa.Operation.C25_switch_off_partial",
    "Ptusa.Operation.C25_no_duplicates_partial",
    "Ptusa.Operation.C25_evaluation_exact",
    "Ptusa.Operation.C25_all_evaluated_partial",
    "Ptusa.Operation.C25_evaluated_violated",
    "Ptusa.Operation.C25_refused_violated",
    "Ptusa.Operation.C25_refused_partial",
    "Ptusa.Operation.C25_duplicates_violated",
    "Ptusa.Operation.C25_main_step_violated",
    "Ptusa.Operation.C25_zero_violated"
   ],
   "note": "partial: on/off/refuse/no-duplicates/evaluation order proved under the stated conditions; violated: refused step stays listed, switch_active_extra_step duplicates, cycle passes over the step after a removed one, main step finalises a listed extra step, number 0 is undefined behaviour."
  },
  {
   "property": "C26",
   "status": "partial",
   "theorems": [
    "Ptusa.Actions.C26_jump_decision_partial",
    "Ptusa.Actions.C26_jump_decision_violated",
    "Ptusa.Actions.C26_jump_target_violated",
    "Ptusa.Actions.C26_enable_by_signals_partial",
    "Ptusa.Actions.C26_enable_by_signals_violated"
   ],
   "note": "First satisfied group decides when every group has a condition and a target; false for groups without a condition (the constructor makes one) and for groups without a target; enabling by signals likewise."
  },
  {
   "property": "C27",
   "status": "proved",
   "theorems": [
    "Ptusa.Actions.C27_di_do",
    "Ptusa.Actions.C27_inverted_di_do",
    "Ptusa.Actions.C27_ai_ao"
   ],
   "note": "All group lists and input states."
  },
  {
   "property": "C28",
   "status": "proved",
   "theorems": [
    "Ptusa.Recipe.C28_recipe_table",
    "Ptusa.Recipe.C28_recipe_table_new"
   ],
   "note": "Every table size, every history of stores, every pair of 32-bit indexes."
  },
  {
   "property": "C29",
   "status": "partial",
   "theorems": [
    "Ptusa.Recipe.C29_load_partial",
    "Ptusa.Recipe.C29_load_source_partial",
    "Ptusa.Recipe.C29_refused_partial",
    "Ptusa.Recipe.C29_load_violated",
    "Ptusa.Recipe.C29_last_parameter_violated"
   ],
   "note": "All-or-nothing when every mapping fits or the first does not; false when a later mapping does not fit, and a mapping that reaches the last parameter of the object is refused."
  },
  {
   "property": "C30",
   "status": "partial",
   "theorems": [
    "Ptusa.Recipe.C30_round_trip_partial",
    "Ptusa.Recipe.C30_other_size_partial",
    "Ptusa.Recipe.C30_seven_digits_violated",
    "Ptusa.Recipe.C30_nan_violated",
    "Ptusa.Recipe.C30_more_parameters_violated",
    "Ptusa.Recipe.C30_no_parameters_violated",
    "Ptusa.Recipe.C30_crash_violated"
   ],
   "note": "Round trip for complete files of printable content (parameters to six digits, whole numbers below 10^6 exactly) and for other sizes; false for seven-digit numbers, NaN, tables without parameters, missing parameters and a crash during the save."
  },
  {
   "property": "C31",
   "status": "partial",
   "theorems": [
    "Ptusa.Recipe.C31_list_partial",
    "Ptusa.Recipe.C31_second_evaluation_partial",
    "Ptusa.Recipe.C31_lists_of_ten_partial",
    "Ptusa.Recipe.C31_separate_violated",
    "Ptusa.Recipe.C31_evaluation_violated",
    "Ptusa.Recipe.C31_two_adapters_violated",
    "Ptusa.Recipe.C31_reload_violated"
   ],
   "note": "Every history with one adapter and one list; false for lists of ten, for the evaluation that saves, for a second adapter of the storage and for a reload."
  },
  {
   "property": "C32",
   "status": "proved",
   "theorems": [
    "Ptusa.PacInfo.C32_uptime"
   ],
   "note": "Every sequence of evaluation times and every uptime below nine million years; four separate clock readings per evaluation."
  },
  {
   "property": "C33",
   "status": "partial",
   "theorems": [
    "Ptusa.PacInfo.C33_expires_partial",
    "Ptusa.PacInfo.C33_not_early_partial",
    "Ptusa.PacInfo.C33_restart_violated",
    "Ptusa.PacInfo.C33_zero_violated",
    "Ptusa.PacInfo.C33_fraction_violated",
    "Ptusa.PacInfo.C33_late_violated"
   ],
   "note": "Expires, and not early, for every history without a restart when set in the first 2^32 ms; never expires after a restart, when set at a zero of the low clock word or with a fractional value; expires at once when set after 49.7 days."
  },
  {
   "property": "C34",
   "status": "partial",
   "theorems": [
    "Ptusa.Analog.C34_range_partial",
    "Ptusa.Analog.C34_ends",
    "Ptusa.Analog.C34_monotone",
    "Ptusa.Analog.C34_nan_violated"
   ],
   "note": "Range, ends and monotonicity for every rational request and every scale (reversed and degenerate included); undefined conversion for NaN and for the request equal to both limits of a degenerate scale. Rounding of float not modelled."
  },
  {
   "property": "C35",
   "status": "partial",
   "theorems": [
    "Ptusa.Analog.C35_read_back_partial",
    "Ptusa.Analog.C35_read_back_554_partial",
    "Ptusa.Analog.C35_read_back_violated",
    "Ptusa.Analog.C35_input_linear_partial",
    "Ptusa.Analog.C35_input_error_partial",
    "Ptusa.Analog.C35_input_error_violated"
   ],
   "note": "Read-back within one raw unit for the AXL modules on every scale and for the 554 from seven units upwards (below it reads the lower limit, unscaled 0 instead of 4 mA); linear inputs for all valid raw values; error reporting exact for 450/461/491, violated for the current inputs and the RTD4. Valid ranges of the AXL inputs are assumed to be those of the outputs."
  },
  {
   "property": "C36",
   "status": "partial",
   "theorems": [
    "Ptusa.Column.C36_most_important_partial",
    "Ptusa.Column.C36_order_partial",
    "Ptusa.Column.C36_manual",
    "Ptusa.Column.C36_order_violated",
    "Ptusa.Column.C36_blue_violated",
    "Ptusa.Column.C36_lit",
    "Ptusa.Column.C36_dark",
    "Ptusa.Column.C36_dark_violated"
   ],
   "note": "Picture of red, yellow, green lamps and siren equals that of the most important posting for every order, provided running batches are not mixed with stopped operations; the blue lamp and blinking depend on the order (witnesses)."
  },
  {
   "property": "C37",
   "status": "partial",
   "theorems": [
    "Ptusa.Counter.C37_relative_partial",
    "Ptusa.Counter.C37_reset_partial",
    "Ptusa.Counter.C37_absolute",
    "Ptusa.Counter.C37_never_reduced",
    "Ptusa.Counter.C37_stuck_violated",
    "Ptusa.Counter.C37_undefined_violated"
   ],
   "note": "Relative value exact for totals up to 2^24 for every history; above that the float value stops counting (theorem for every length); never reduced in any history; absolute counter for all histories modulo 2^32."
  },
  {
   "property": "C38",
   "status": "partial",
   "theorems": [
    "Ptusa.Device.C38_isolated_partial",
    "Ptusa.Device.C38_manual_partial",
    "Ptusa.Device.C38_leaving_partial",
    "Ptusa.Device.C38_commands",
    "Ptusa.Device.C38_whole_part",
    "Ptusa.Device.C38_power_unit_violated",
    "Ptusa.Device.C38_open_seat_violated",
    "Ptusa.Device.C38_state_undefined_violated",
    "Ptusa.ValveOff.C38_delayed_close_violated",
    "Ptusa.ValveOff.C38_bottom_manual_violated"
   ],
   "note": "For every class of devices that overrides only the direct_* functions, all interleavings; classes that bypass the common scheme are violations (power_unit and circuit_breaker ST, open_upper_seat/open_lower_seat)."
  },
  {
   "property": "C39",
   "status": "partial",
   "theorems": [
    "Ptusa.Actions.C39_seat_index_safe",
    "Ptusa.Actions.C39_one_group_open",
    "Ptusa.Actions.C39_groups_take_turns",
    "Ptusa.Actions.C39_starts_with_first",
    "Ptusa.Actions.C39_open_commands",
    "Ptusa.Actions.C39_finalise_closes",
    "Ptusa.Actions.C39_wait_time_partial",
    "Ptusa.Actions.C39_wait_time_violated"
   ],
   "note": "Index safety, one group at a time, cyclic order, commands and closing for every history; the waiting time is right when the washings fit and wraps to weeks when they do not (steps without a time limit)."
  },
  {
   "property": "C40",
   "status": "proved",
   "theorems": [
    "Ptusa.Actions.C40_delay_on",
    "Ptusa.Actions.C40_delay_off",
    "Ptusa.Actions.C40_on_off_priority"
   ],
   "note": "All groups, delays and times; the delay comparison is over exact numbers."
  },
  {
   "property": "C41",
   "status": "proved",
   "theorems": [
    "Ptusa.Actions.C41_wash_devices",
    "Ptusa.Actions.C41_wash_ready"
   ],
   "note": "All groups whose devices have one role."
  },
  {
   "property": "C42",
   "status": "partial",
   "theorems": [
    "Ptusa.Actions.C42_error_text_in_buffer_violated",
    "Ptusa.Actions.C42_error_text_in_buffer_partial"
   ],
   "note": "False of the code (inner break only, negative limit becomes huge); proved when space runs out in the last subgroup in error."
  },
  {
   "property": "C43",
   "status": "proved",
   "theorems": [
    "Ptusa.Actions.C43_finalise_switches_off",
    "Ptusa.Actions.C43_finalise_touches_only_own"
   ],
   "note": "All combinations of actions."
  },
  {
   "property": "C44",
   "status": "partial",
   "theorems": [
    "Ptusa.Actions.C44_step_time_partial",
    "Ptusa.Actions.C44_step_time_violated",
    "Ptusa.Actions.C44_step_time_defined_violated",
    "Ptusa.Actions.C44_no_extra_overdue_partial"
   ],
   "note": "Exact for the main step; false for extra steps (arguments exchanged, read beyond the list of steps)."
  },
  {
   "property": "C45",
   "status": "partial",
   "theorems": [
    "Ptusa.Time.C45_step_elapsed_partial",
    "Ptusa.Time.C45_step_elapsed_late",
    "Ptusa.Time.C45_step_elapsed_violated"
   ],
   "note": "Exact for steps started in the first 2^32 ms of uptime; every step started later has at once exceeded 2^32 ms."
  },
  {
   "property": "C46",
   "status": "partial",
   "theorems": [
    "Ptusa.Recipe.C46_command_partial",
    "Ptusa.Recipe.C46_zero_violated",
    "Ptusa.Recipe.C46_exception_violated"
   ],
   "note": "Proved for well-formed numbers; false for list number 0, numbers above INT_MAX and values without digits."
  },
  {
   "property": "C47",
   "status": "partial",
   "theorems": [
    "Ptusa.ValveOff.C47_refines_partial",
    "Ptusa.ValveOff.C47_independent_partial",
    "Ptusa.ValveOff.C47_stays_open_partial",
    "Ptusa.ValveOff.C47_closes_partial",
    "Ptusa.ValveOff.C47_cancelled_partial",
    "Ptusa.ValveOff.C47_only_on_request_partial",
    "Ptusa.ValveOff.C47_bottom_violated",
    "Ptusa.ValveOff.C47_bottom_reopened_violated",
    "Ptusa.ValveOff.C47_set_state_violated"
   ],
   "note": "All classes that do not override the end of the delay, all histories; bottom mix-proof valves (never closed, or closed against an opening) and openings by set_state are violations."
  },
  {
   "property": "C48",
   "status": "partial",
   "theorems": [
    "Ptusa.BitIo.C48_as_seat_violated",
    "Ptusa.Valve.C48_error_only_partial",
    "Ptusa.Valve.C48_error_reported_partial",
    "Ptusa.Valve.C48_stuck_open_partial",
    "Ptusa.Valve.C48_stuck_close_partial",
    "Ptusa.Valve.C48_bistable_stop_violated",
    "Ptusa.Valve.C48_bistable_reported_partial",
    "Ptusa.Valve.C48_bistable_wrap_violated",
    "Ptusa.Valve.C48_iolink_repeated_violated",
    "Ptusa.Valve.C48_iolink_reported_partial",
    "Ptusa.Valve.C48_iolink_values_violated"
   ],
   "note": "All histories for one-input, two-input and mix-proof valves with P_ON_TIME in [0, 2^24); bistable and IO-Link mix-proof valves: the error is reported when the time has run from the last start, with violations for stopped bistable valves, 2^32 ms, repeated on() of IO-Link valves, exchanged feedback values and AS-i seats. Thinktop, Sorio and GEA valves are not modelled."
  },
  {
   "property": "C49",
   "status": "partial",
   "theorems": [
    "Ptusa.Valve.C49_exclusive",
    "Ptusa.Valve.C49_iolink_exclusive",
    "Ptusa.Valve.C49_pulse",
    "Ptusa.Valve.C49_pulse_violated"
   ],
   "note": "All classes and histories; the pulse for P_ON_TIME in [0, 2^24), and a violation (undefined conversion) for negative values."
  },
  {
   "property": "C50",
   "status": "partial",
   "theorems": [
    "Ptusa.BitIo.C50_terminal",
    "Ptusa.BitIo.C50_terminal_states",
    "Ptusa.BitIo.C50_terminal_state",
    "Ptusa.BitIo.C50_terminal_unused",
    "Ptusa.BitIo.C50_terminal_defined_partial",
    "Ptusa.BitIo.C50_terminal_range_violated",
    "Ptusa.BitIo.C50_as",
    "Ptusa.BitIo.C50_as_place",
    "Ptusa.BitIo.C50_as_others",
    "Ptusa.BitIo.C50_as_defined_partial",
    "Ptusa.BitIo.C50_as_range_violated"
   ],
   "note": "All configurations, images and histories within the image; numbers beyond the image are a violation (never checked)."
  },
  {
   "property": "C51",
   "status": "partial",
   "theorems": [
    "Ptusa.Valve.C51_on_off_partial",
    "Ptusa.Valve.C51_bistable_partial",
    "Ptusa.Valve.C51_bistable_stop",
    "Ptusa.Valve.C51_bistable_reverse_violated",
    "Ptusa.Valve.C51_inverted_violated",
    "Ptusa.Valve.C51_set_state_partial",
    "Ptusa.Valve.C51_iolink_set_state",
    "Ptusa.Valve.C51_set_state_violated"
   ],
   "note": "on/off for all classes except valve_DO2_DI2 (violated: shown inverted); set state for mix-proof and IO-Link valves, violated for all classes without direct_set_state."
  },
  {
   "property": "C52",
   "status": "partial",
   "theorems": [
    "Ptusa.Timer.C52_work_time",
    "Ptusa.Timer.C52_time_up_partial",
    "Ptusa.Timer.C52_long_countdown_violated",
    "Ptusa.Timer.C52_time_up_violated",
    "Ptusa.Timer.C52_paused_violated",
    "Ptusa.Timer.C52_group"
   ],
   "note": "Working time for every history on the 64-bit clock; end of time for running timers below 2^32 ms; violations: paused timers, long runs, long times."
  },
  {
   "property": "C53",
   "status": "partial",
   "theorems": [
    "Ptusa.Debounce.C53_steady_partial",
    "Ptusa.Debounce.C53_lasting_partial",
    "Ptusa.Debounce.C53_no_filter",
    "Ptusa.Debounce.C53_uptime_violated",
    "Ptusa.Debounce.C53_defined_partial",
    "Ptusa.Debounce.C53_negative_violated",
    "Ptusa.Debounce.C53_iolink",
    "Ptusa.Debounce.C53_level"
   ],
   "note": "In the first 2^32 ms of uptime, every history; afterwards the filter does not work at all (violation); negative P_DT is undefined."
  },
  {
   "property": "C54",
   "status": "proved",
   "theorems": [
    "Ptusa.Motor.C54_exclusive",
    "Ptusa.Motor.C54_command",
    "Ptusa.Motor.C54_only_commands",
    "Ptusa.Motor.C54_shown"
   ],
   "note": "All sub types and histories."
  },
  {
   "property": "C55",
   "status": "proved",
   "theorems": [
    "Ptusa.Motor.C55_error_only",
    "Ptusa.Motor.C55_reported"
   ],
   "note": "All sub types, histories in order of time, P_ON_TIME in [0, 2^24) ms as stated."
  },
  {
   "property": "C56",
   "status": "partial",
   "theorems": [
    "Ptusa.Thld.C56_thresholds",
    "Ptusa.Thld.C56_hysteresis",
    "Ptusa.Thld.C56_inside",
    "Ptusa.Thld.C56_off",
    "Ptusa.Thld.C56_value_violated",
    "Ptusa.Thld.C56_value_partial",
    "Ptusa.Thld.C56_restart_violated"
   ],
   "note": "All histories; violations: value shown after off, state kept over off and on."
  },
  {
   "property": "C57",
   "status": "partial",
   "theorems": [
    "Ptusa.Fqt.C57_absolute_partial",
    "Ptusa.Fqt.C57_wrap_violated",
    "Ptusa.Fqt.C57_first_violated",
    "Ptusa.Fqt.C57_stuck_violated",
    "Ptusa.Fqt.C57_relative_partial",
    "Ptusa.Fqt.C57_daily_partial"
   ],
   "note": "All histories from the first reading on, values up to 2^24; exact count of the pulse lost at each wrap; violations for wrap, first reading and large values. IO-Link counters are not modelled."
  },
  {
   "property": "C58",
   "status": "partial",
   "theorems": [
    "Ptusa.Fqt.C58_error_only_partial",
    "Ptusa.Fqt.C58_reported_partial",
    "Ptusa.Fqt.C58_uptime_violated",
    "Ptusa.Fqt.C58_recovers"
   ],
   "note": "In the first 2^32 ms of uptime, every history; afterwards an error is shown at once (violation)."
  },
  {
   "property": "C59",
   "status": "partial",
   "theorems": [
    "Ptusa.Tcp.C59_answered_partial",
    "Ptusa.Tcp.C59_registered",
    "Ptusa.Tcp.C59_long_violated",
    "Ptusa.Tcp.C59_refused"
   ],
   "note": "All requests and services with answers of at most 65535 bytes; longer answers cannot be read (violation for all of them)."
  },
  {
   "property": "C60",
   "status": "partial",
   "theorems": [
    "Ptusa.Tcp.C60_independent",
    "Ptusa.Tcp.C60_split_violated",
    "Ptusa.Tcp.C60_joined_violated"
   ],
   "note": "Independence of the old buffer for all requests; violations for split and joined requests."
  },
  {
   "property": "C61",
   "status": "proved",
   "theorems": [
    "Ptusa.Tcp.C61_whole_or_closed",
    "Ptusa.Tcp.C61_delivered",
    "Ptusa.Tcp.C61_kept"
   ],
   "note": "All results of select and send."
  },
  {
   "property": "C62",
   "status": "partial",
   "theorems": [
    "Ptusa.Tcp.C62_no_leak",
    "Ptusa.Tcp.C62_once_per_cycle",
    "Ptusa.Tcp.C62_not_again",
    "Ptusa.Tcp.C62_all_served_partial",
    "Ptusa.Tcp.C62_skipped_violated"
   ],
   "note": "All histories with descriptors as handed out by the operating system; violation: the client after one that is closed is passed over in that cycle."
  },
  {
   "property": "C63",
   "status": "partial",
   "theorems": [
    "Ptusa.Tcp.C63_silent_violated",
    "Ptusa.Tcp.C63_silent_modbus",
    "Ptusa.Tcp.C63_opened",
    "Ptusa.Tcp.C63_failed_partial",
    "Ptusa.Tcp.C63_leak_violated"
   ],
   "note": "Success and failure on the first port complete; violations: silent client of the server port, failure on the Modbus port leaks without bound."
  },
  {
   "property": "C64",
   "status": "partial",
   "theorems": [
    "Ptusa.Tcp.C64_alarm_partial",
    "Ptusa.Tcp.C64_masked_violated"
   ],
   "note": "For any client socket instead of the server; violation: Modbus clients and failing clients mask the loss of the server."
  },
  {
   "property": "C65",
   "status": "partial",
   "theorems": [
    "Ptusa.DevSrv.C65_commands_partial",
    "Ptusa.DevSrv.C65_unknown_violated",
    "Ptusa.DevSrv.C65_packing_violated"
   ],
   "note": "Known commands with a working compressor; violations: unknown numbers are acknowledged, a failing compressor turns every result into success."
  },
  {
   "property": "C66",
   "status": "partial",
   "theorems": [
    "Ptusa.DevSrv.C66_stable",
    "Ptusa.DevSrv.C66_set",
    "Ptusa.DevSrv.C66_list",
    "Ptusa.DevSrv.C66_restart_partial",
    "Ptusa.DevSrv.C66_hidden_violated"
   ],
   "note": "As long as no two clients use the same id; violation otherwise."
  },
  {
   "property": "C67",
   "status": "partial",
   "theorems": [
    "Ptusa.DevSrv.C67_text",
    "Ptusa.DevSrv.C67_same_partial",
    "Ptusa.DevSrv.C67_wrap_violated"
   ],
   "note": "Fewer than 32767 polls in between and managers of errors that change their id with their text; violation after 65536 changes."
  },
  {
   "property": "C68",
   "status": "partial",
   "theorems": [
    "Ptusa.DevSrv.C68_overflow_violated",
    "Ptusa.DevSrv.C68_fits_partial"
   ],
   "note": "Texts up to 511992 bytes, packed up to 65535; violation for every longer list."
  },
  {
   "property": "C69",
   "status": "partial",
   "theorems": [
    "Ptusa.Modbus.C69_wire",
    "Ptusa.Modbus.C69_coils_partial",
    "Ptusa.Modbus.C69_spare_violated",
    "Ptusa.Modbus.C69_registers",
    "Ptusa.Modbus.C69_answered",
    "Ptusa.Modbus.C69_missing_violated"
   ],
   "note": "Up to 2040 coils; registers with a value. Violations: spare bits and registers without a value hold bytes of the request."
  },
  {
   "property": "C70",
   "status": "partial",
   "theorems": [
    "Ptusa.Modbus.C70_coil_violated",
    "Ptusa.Modbus.C70_unknown_violated",
    "Ptusa.Modbus.C70_read_violated"
   ],
   "note": "Only replies to writing registers tell (C71_registers); violations for coils, unknown functions and failed readings."
  },
  {
   "property": "C71",
   "status": "partial",
   "theorems": [
    "Ptusa.Modbus.C71_registers",
    "Ptusa.Modbus.C71_short_violated",
    "Ptusa.Modbus.C71_absent_violated",
    "Ptusa.Modbus.C71_coil",
    "Ptusa.Modbus.C71_pack"
   ],
   "note": "Complete messages and projects with a function; violations: short messages are filled with zeros, projects without a function acknowledge."
  },
  {
   "property": "C72",
   "status": "partial",
   "theorems": [
    "Ptusa.Text.C72_utf8",
    "Ptusa.Text.C72_wide",
    "Ptusa.Text.C72_typed",
    "Ptusa.Text.C72_typed_long",
    "Ptusa.Text.C72_shown_partial",
    "Ptusa.Text.C72_recipe_partial",
    "Ptusa.Text.C72_signs_violated",
    "Ptusa.Text.C72_latin_violated",
    "Ptusa.Text.C72_cut_violated",
    "Ptusa.Text.C72_long_violated",
    "Ptusa.Text.C72_length",
    "Ptusa.Text.C72_invalid_violated",
    "Ptusa.Text.C72_four_violated"
   ],
   "note": "All texts of the code page on the way from the panel; back to the panel letters, ASCII and the number sign below 96 bytes. Violations: signs of three bytes cut the text, Latin letters become Russian ones, reads and writes outside buffers, invalid and four-byte texts pass the length check."
  },
  {
   "property": "C73",
   "status": "partial",
   "theorems": [
    "Ptusa.Modbus.C73_lines_partial",
    "Ptusa.Modbus.C73_before_violated",
    "Ptusa.Modbus.C73_command_violated"
   ],
   "note": "Recipes, parameters and register reads of the control group; violations: line -1 for numbers below 1000 (100), any line for commands."
  },
  {
   "property": "C74",
   "status": "partial",
   "theorems": [
    "Ptusa.Coupler.C74_digital_partial",
    "Ptusa.Coupler.C74_unanswered",
    "Ptusa.Coupler.C74_history_partial",
    "Ptusa.Coupler.C74_fragment_violated",
    "Ptusa.Coupler.C74_frozen_violated",
    "Ptusa.Coupler.C74_many_violated",
    "Ptusa.Coupler.C74_analog_partial",
    "Ptusa.Coupler.C74_phoenix"
   ],
   "note": "Proved for complete answers (WAGO digital and analog, Phoenix in parts); cut answers are completed from the request (counterexample), after which the image is frozen; more than 255 digital inputs of a WAGO node are never read."
  },
  {
   "property": "C75",
   "status": "partial",
   "theorems": [
    "Ptusa.Coupler.C75_digital_partial",
    "Ptusa.Coupler.C75_short_violated",
    "Ptusa.Coupler.C75_many_violated",
    "Ptusa.Coupler.C75_overflow_violated",
    "Ptusa.Coupler.C75_phoenix",
    "Ptusa.Coupler.C75_phoenix_short_violated",
    "Ptusa.Coupler.C75_analog_partial",
    "Ptusa.Coupler.C75_shown_violated"
   ],
   "note": "Proved for WAGO nodes with up to 255 digital outputs and analog outputs that fit the buffer, and for Phoenix nodes of any size whatever the network does; answers shorter than eight bytes confirm, more than 255 outputs are not written but recorded, more than 1992 overflow the buffer, and devices show what was asked for, not what was confirmed."
  },
  {
   "property": "C76",
   "status": "partial",
   "theorems": [
    "Ptusa.Coupler.C76_reported",
    "Ptusa.Coupler.C76_off",
    "Ptusa.Coupler.C76_others",
    "Ptusa.Coupler.C76_refused_violated",
    "Ptusa.Coupler.C76_enable_violated",
    "Ptusa.Coupler.C76_service_partial",
    "Ptusa.Coupler.C76_service_violated",
    "Ptusa.Coupler.C76_zero_violated",
    "Ptusa.Coupler.C76_number"
   ],
   "note": "Reported exactly when not heard for more than six seconds, for every history; refusals count as being heard, a node switched on again is reported although it answers, clearing errors hides a switched off node, number 0 is undefined."
  },
  {
   "property": "C77",
   "status": "partial",
   "theorems": [
    "Ptusa.Coupler.C77_delay",
    "Ptusa.Coupler.C77_tried",
    "Ptusa.Coupler.C77_wait",
    "Ptusa.Coupler.C77_hang_violated"
   ],
   "note": "Pauses proved for every history; a coupler that accepts connections but does not answer is connected again at every exchange."
  },
  {
   "property": "C78",
   "status": "proved",
   "theorems": [
    "Ptusa.Coupler.C78_state",
    "Ptusa.Coupler.C78_other"
   ],
   "note": "Complete."
  },
  {
   "property": "C79",
   "status": "partial",
   "theorems": [
    "Ptusa.Coupler.C79_places",
    "Ptusa.Coupler.C79_digital",
    "Ptusa.Coupler.C79_apart",
    "Ptusa.Coupler.C79_analog_partial",
    "Ptusa.Coupler.C79_analog_violated"
   ],
   "note": "Proved for digital channels and for analog offsets that exist; analog offsets behind the channels of the node are accepted and read outside of the table of module types."
  },
  {
   "property": "C80",
   "status": "partial",
   "theorems": [
    "Ptusa.Registry.C80_found_partial",
    "Ptusa.Registry.C80_absent_partial",
    "Ptusa.Registry.C80_by_name_partial",
    "Ptusa.Registry.C80_name",
    "Ptusa.Registry.C80_safe_partial",
    "Ptusa.Registry.C80_cleared",
    "Ptusa.Registry.C80_order_violated",
    "Ptusa.Registry.C80_mixed_violated",
    "Ptusa.Registry.C80_unknown_violated",
    "Ptusa.Registry.C80_long_violated",
    "Ptusa.Registry.C80_log_violated",
    "Ptusa.Registry.C80_type_violated"
   ],
   "note": "Proved when the devices of a type are registered next to one another in ascending order of their names (below 20 bytes); other orders, unknown kinds, long names and negative types have counterexamples."
  },
  {
   "property": "C81",
   "status": "partial",
   "theorems": [
    "Ptusa.Registry.C81_number",
    "Ptusa.Registry.C81_knows",
    "Ptusa.Registry.C81_serial_violated",
    "Ptusa.Registry.C81_subtype_partial",
    "Ptusa.Registry.C81_subtype_violated"
   ],
   "note": "Number, name and type proved for all registrations; the subtype for the classes whose constructor gets it, with the exceptions as counterexamples; stand-ins tell the number 0."
  },
  {
   "property": "C82",
   "status": "partial",
   "theorems": [
    "Ptusa.Registry.C82_registered_partial",
    "Ptusa.Registry.C82_unknown_partial",
    "Ptusa.Registry.C82_unknown_violated",
    "Ptusa.Registry.C82_camera_violated",
    "Ptusa.Registry.C82_kind_violated",
    "Ptusa.Registry.C82_counter"
   ],
   "note": "Proved for registered names of the usual subtypes and, for most functions, for unknown names; M, LT, WT, HLA and CAM cast the stand-in to a class it does not have."
  },
  {
   "property": "C83",
   "status": "partial",
   "theorems": [
    "Ptusa.ParDev.C83_holds",
    "Ptusa.ParDev.C83_result",
    "Ptusa.ParDev.C83_restart",
    "Ptusa.ParDev.C83_nameless_violated",
    "Ptusa.ParDev.C83_stub_violated"
   ],
   "note": "Holds for all classes of the repository; classes with a nameless parameter and reading of numbers that do not exist are the counterexamples."
  },
  {
   "property": "C84",
   "status": "partial",
   "theorems": [
    "Ptusa.CipRec.C84_table_partial",
    "Ptusa.CipRec.C84_set_partial",
    "Ptusa.CipRec.C84_others_partial",
    "Ptusa.CipRec.C84_index_violated",
    "Ptusa.CipRec.C84_default_violated",
    "Ptusa.CipRec.C84_unset64_violated",
    "Ptusa.CipRec.C84_defaults_partial",
    "Ptusa.CipRec.C84_order_number"
   ],
   "note": "Proved for existing values (1 to 120 of the server), convertible names, orders that are numbers of an int and writes that are complete or fail; indices of the server that do not exist, the default of the value 82 and the mark of unset values on 64-bit controllers are the counterexamples.  Copying between lines (the buffer is shared) is not modelled."
  },
  {
   "property": "C85",
   "status": "partial",
   "theorems": [
    "Ptusa.CipRec.C85_table_partial",
    "Ptusa.CipRec.C85_back_partial",
    "Ptusa.CipRec.C85_list_partial",
    "Ptusa.CipRec.C85_set_current_violated",
    "Ptusa.CipRec.C85_copy_violated",
    "Ptusa.CipRec.C85_sign_violated",
    "Ptusa.CipRec.C85_long_violated",
    "Ptusa.CipRec.C85_medium_overflow_violated",
    "Ptusa.CipRec.C85_medium_encoding_violated"
   ],
   "note": "Proved for names of at most 23 characters that the program can convert; `setCurrentRecipe`, signs, names with wrong bytes, copying after renaming and the recipes of media are the counterexamples."
  },
  {
   "property": "C86",
   "status": "partial",
   "theorems": [
    "Ptusa.CipRec.C86_saved_partial",
    "Ptusa.CipRec.C86_shutdown_partial",
    "Ptusa.CipRec.C86_name_violated",
    "Ptusa.CipRec.C86_busy_violated",
    "Ptusa.CipRec.C86_failed_write_violated",
    "Ptusa.CipRec.C86_torn_violated"
   ],
   "note": "Proved for values when nothing is changed for half a minute and the write succeeds, and for everything at a regular end; names alone, continuous changes, failed and torn writes are the counterexamples."
  },
  {
   "property": "C87",
   "status": "partial",
   "theorems": [
    "Ptusa.Cip.C87_exclusive_partial",
    "Ptusa.Cip.C87_refused",
    "Ptusa.Cip.C87_started",
    "Ptusa.Cip.C87_valves_partial",
    "Ptusa.Cip.C87_closed_partial",
    "Ptusa.Cip.C87_next_violated",
    "Ptusa.Cip.C87_select_violated",
    "Ptusa.Cip.C87_edit_violated",
    "Ptusa.Cip.C87_fraction_violated",
    "Ptusa.Cip.C87_shared_violated",
    "Ptusa.Cip.C87_unopened_violated",
    "Ptusa.Cip.C87_unlock_violated",
    "Ptusa.Cip.C87_no_recipe_violated",
    "Ptusa.Cip.C87_number_violated"
   ],
   "note": "Proved when refused starts are not skipped by NEXT, recipes are chosen and edited for idle lines only, have whole numbers and different numbers are different devices; the other cases are the counterexamples."
  },
  {
   "property": "C88",
   "status": "partial",
   "theorems": [
    "Ptusa.Cip.C88_stopped_partial",
    "Ptusa.Cip.C88_pause_partial",
    "Ptusa.Cip.C88_lock_partial",
    "Ptusa.Cip.C88_stays_partial",
    "Ptusa.Cip.C88_reset_partial",
    "Ptusa.Cip.C88_dosing_partial",
    "Ptusa.Cip.C88_unlock_violated",
    "Ptusa.Cip.C88_dosing_violated"
   ],
   "note": "Proved when only locked lines are unlocked and without the order to switch on the return pump; the return pump then runs although the line is stopped, by intention.  UNLOCK of a line that is not locked is the counterexample."
  },
  {
   "property": "C89",
   "status": "partial",
   "theorems": [
    "Ptusa.Cip.C89_known",
    "Ptusa.Cip.C89_order_partial",
    "Ptusa.Cip.C89_complete_partial",
    "Ptusa.Cip.C89_wash_exists",
    "Ptusa.Cip.C89_choice",
    "Ptusa.Cip.C89_high_bits_violated",
    "Ptusa.Cip.C89_program_violated"
   ],
   "note": "Proved for programs below 4096 that are not changed during the wash, without RESET (see C88 for it); the other cases are the counterexamples."
  },
  {
   "property": "C90",
   "status": "partial",
   "theorems": [
    "Ptusa.Cip.C90_alone_partial",
    "Ptusa.Cip.C90_bits_violated",
    "Ptusa.Cip.C90_program_violated",
    "Ptusa.Cip.C90_stuck_violated"
   ],
   "note": "Proved for the programs that the list offers, chosen for idle lines; the lock-up by a failed start is proved for all histories of the other line."
  },
  {
   "property": "C91",
   "status": "partial",
   "theorems": [
    "Ptusa.Cip.C91_refused",
    "Ptusa.Cip.C91_acid_partial",
    "Ptusa.Cip.C91_next_violated",
    "Ptusa.Cip.C91_object_violated",
    "Ptusa.Cip.C91_second_caustic_violated",
    "Ptusa.Cip.C91_program_violated"
   ],
   "note": "Proved for the programs that the list offers, chosen for idle lines, when refused starts are not skipped and objects can be set up; the other cases are the counterexamples."
  },
  {
   "property": "C92",
   "status": "partial",
   "theorems": [
    "Ptusa.CipErr.C92_codes",
    "Ptusa.CipErr.C92_sound",
    "Ptusa.CipErr.C92_at_once_partial",
    "Ptusa.CipErr.C92_pump",
    "Ptusa.CipErr.C92_level_partial",
    "Ptusa.CipErr.C92_level_early_partial",
    "Ptusa.CipErr.C92_level_violated",
    "Ptusa.CipErr.C92_flow_partial",
    "Ptusa.CipErr.C92_flow_early_partial",
    "Ptusa.CipErr.C92_pump_off_violated",
    "Ptusa.CipErr.C92_fraction_violated",
    "Ptusa.CipErr.C92_preparation_violated",
    "Ptusa.CipErr.C92_nan_violated",
    "Ptusa.CipErr.C92_negative_violated"
   ],
   "note": "The stop of the wash itself is in C88.  Proved in full for the pump and for what is noticed at once; for the levels and the flow no alarm is missed (a step shorter than 49 days), early alarms are the counterexamples."
  },
  {
   "property": "C93",
   "status": "partial",
   "theorems": [
    "Ptusa.MbClient.C93_request_partial",
    "Ptusa.MbClient.C93_coils_violated",
    "Ptusa.MbClient.C93_registers_violated",
    "Ptusa.MbClient.C93_read_write_violated"
   ],
   "note": "Proved for up to 255 coils, 121 registers and 119 registers of a read/write; beyond that the code violates the property."
  },
  {
   "property": "C94",
   "status": "partial",
   "theorems": [
    "Ptusa.MbClient.C94_accepted",
    "Ptusa.MbClient.C94_refused",
    "Ptusa.MbClient.C94_registers_partial",
    "Ptusa.MbClient.C94_registers_violated",
    "Ptusa.MbClient.C94_coils_partial",
    "Ptusa.MbClient.C94_coils_violated",
    "Ptusa.MbClient.C94_foreign_violated",
    "Ptusa.MbClient.C94_setters_inside",
    "Ptusa.MbClient.C94_written_partial",
    "Ptusa.MbClient.C94_read_between_violated",
    "Ptusa.MbClient.C94_outside_partial",
    "Ptusa.MbClient.C94_outside_violated",
    "Ptusa.MbClient.C94_long"
   ],
   "note": "Answers are checked by length only; proved for up to 123 registers and 1976 coils.  Values to write: provided that answers in between have at most 13 bytes."
  },
  {
   "property": "C95",
   "status": "partial",
   "theorems": [
    "Ptusa.MbClient.C95_coils_partial",
    "Ptusa.MbClient.C95_coils_defined_partial",
    "Ptusa.MbClient.C95_bounds_violated",
    "Ptusa.MbClient.C95_masks_partial",
    "Ptusa.MbClient.C95_masks_violated",
    "Ptusa.MbClient.C95_reverse"
   ],
   "note": "Proved for bits that fit into the buffer and after mask_reset."
  },
  {
   "property": "C96",
   "status": "partial",
   "theorems": [
    "Ptusa.MbClient.C96_result_partial",
    "Ptusa.MbClient.C96_frame_partial",
    "Ptusa.MbClient.C96_again_partial",
    "Ptusa.MbClient.C96_other_violated"
   ],
   "note": "Proved for a program that asks for one request at a time and sets registers behind its head; different requests in turn are the counterexample."
  },
  {
   "property": "C97",
   "status": "partial",
   "theorems": [
    "Ptusa.Altivar.C97_command_partial",
    "Ptusa.Altivar.C97_next_partial",
    "Ptusa.Altivar.C97_configured_partial",
    "Ptusa.Altivar.C97_frames_partial",
    "Ptusa.Altivar.C97_disabled",
    "Ptusa.Altivar.C97_stale_violated",
    "Ptusa.Altivar.C97_mixed_violated",
    "Ptusa.Altivar.C97_refused_violated",
    "Ptusa.Altivar.C97_speed_violated"
   ],
   "note": "Proved for answers of the right length or at most 13 bytes; others become part of the next command (violated).  No bound on the age of a command exists (violated)."
  },
  {
   "property": "C98",
   "status": "partial",
   "theorems": [
    "Ptusa.Altivar.C98_state_partial",
    "Ptusa.Altivar.C98_alarm_partial",
    "Ptusa.Altivar.C98_values",
    "Ptusa.Altivar.C98_silent_violated",
    "Ptusa.Altivar.C98_max",
    "Ptusa.Altivar.C98_percent_partial",
    "Ptusa.Altivar.C98_percent_violated"
   ],
   "note": "Proved for a clock that does not go back; a drive that accepts connections but does not answer raises no alarm (violated)."
  },
  {
   "property": "C99",
   "status": "partial",
   "theorems": [
    "Ptusa.CipStats.C99_table_partial",
    "Ptusa.CipStats.C99_saved_partial",
    "Ptusa.CipStats.C99_safe",
    "Ptusa.CipStats.C99_crash_partial",
    "Ptusa.CipStats.C99_truncated_violated",
    "Ptusa.CipStats.C99_locked_violated",
    "Ptusa.CipStats.C99_corrupt_violated",
    "Ptusa.CipStats.C99_plcnext_violated"
   ],
   "note": "Proved for at most 500 million events and texts that fit their arrays; the file is emptied before it is written, written only by the first line, read without a check of lengths (violated)."
  },
  {
   "property": "C100",
   "status": "partial",
   "theorems": [
    "Ptusa.CipStats.C100_count_partial",
    "Ptusa.CipStats.C100_demand_partial",
    "Ptusa.CipStats.C100_reset_violated",
    "Ptusa.CipStats.C100_reload_violated"
   ],
   "note": "Proved between restarts; washes ended by the operator and those during a reload are not written (violated)."
  },
  {
   "property": "C101",
   "status": "partial",
   "theorems": [
    "Ptusa.Siren.C101_siren_partial",
    "Ptusa.Siren.C101_new_alarm_sounds_partial",
    "Ptusa.Siren.C101_new_critical_sounds",
    "Ptusa.Siren.C101_unchanged",
    "Ptusa.Siren.C101_red_partial",
    "Ptusa.Siren.C101_yellow_partial",
    "Ptusa.Siren.C101_blinks",
    "Ptusa.Siren.C101_phases",
    "Ptusa.Siren.C101_green_partial",
    "Ptusa.Siren.C101_suppressed_hides_violated",
    "Ptusa.Siren.C101_alarm_missed_violated",
    "Ptusa.Siren.C101_cleared_error_sounds_violated",
    "Ptusa.Siren.C101_green_violated"
   ],
   "note": "Proved in service when no suppressed device in error follows in the list and the objects agree on having a Lua function; missed and false sounds otherwise (violated)."
  },
  {
   "property": "C102",
   "status": "partial",
   "theorems": [
    "Ptusa.LuaCall.C102_answer",
    "Ptusa.LuaCall.C102_no_answer",
    "Ptusa.LuaCall.C102_stack_partial",
    "Ptusa.LuaCall.C102_below",
    "Ptusa.LuaCall.C102_safe_partial",
    "Ptusa.LuaCall.C102_depth",
    "Ptusa.LuaCall.C102_failing_violated",
    "Ptusa.LuaCall.C102_check_violated",
    "Ptusa.LuaCall.C102_error_object_violated",
    "Ptusa.LuaCall.C102_not_table_violated"
   ],
   "note": "Answers are exact in every history; the stack and the survival of the program are partial: failing calls and every check leak, error objects that are no texts and objects that are no tables end the program (violated)."
  },
  {
   "property": "C103",
   "status": "partial",
   "theorems": [
    "Ptusa.LuaCall.C103_logged",
    "Ptusa.LuaCall.C103_once_partial",
    "Ptusa.LuaCall.C103_only",
    "Ptusa.LuaCall.C103_bounded",
    "Ptusa.LuaCall.C103_repeats_violated",
    "Ptusa.LuaCall.C103_long_violated"
   ],
   "note": "Logged, bounded and nothing else: full.  Once: up to 50 different errors (violated beyond); very long texts overflow the log buffer (violated)."
  },
  {
   "property": "C104",
   "status": "partial",
   "theorems": [
    "Ptusa.IolSens.C104_pressure_partial",
    "Ptusa.IolSens.C104_link",
    "Ptusa.IolSens.C104_level_partial",
    "Ptusa.IolSens.C104_stale_violated",
    "Ptusa.IolSens.C104_level_switch",
    "Ptusa.IolSens.C104_unknown_violated",
    "Ptusa.IolSens.C104_conductivity",
    "Ptusa.IolSens.C104_flow",
    "Ptusa.IolSens.C104_temperature_partial",
    "Ptusa.IolSens.C104_temperature_violated"
   ],
   "note": "Partial: pressure sensors PM17xx on stale data, unknown articles, signed char (each violated)."
  },
  {
   "property": "C105",
   "status": "partial",
   "theorems": [
    "Ptusa.Scales.C105_weight_partial",
    "Ptusa.Scales.C105_stale_violated",
    "Ptusa.Scales.C105_tare",
    "Ptusa.Scales.C105_tare_zero",
    "Ptusa.Scales.C105_reset",
    "Ptusa.Scales.C105_fault_tare_violated"
   ],
   "note": "Partial: stale data exchange the words; a tare during a fault (violated)."
  },
  {
   "property": "C106",
   "status": "partial",
   "theorems": [
    "Ptusa.Scales.C106_serial_partial",
    "Ptusa.Scales.C106_serial_protocol",
    "Ptusa.Scales.C106_serial_stale_violated",
    "Ptusa.Scales.C106_serial_neighbour_violated",
    "Ptusa.Scales.C106_network_partial",
    "Ptusa.Scales.C106_network_bad",
    "Ptusa.Scales.C106_network_silent_violated",
    "Ptusa.Scales.C106_network_piece_violated"
   ],
   "note": "Partial: stale data, digits behind the module, silent scales, messages in pieces (each violated).  `atof` without exponents."
  },
  {
   "property": "C107",
   "status": "partial",
   "theorems": [
    "Ptusa.Scales.C107_close",
    "Ptusa.Scales.C107_kept",
    "Ptusa.Scales.C107_error_violated"
   ],
   "note": "Exact arithmetic.  The error numbers are shown in one reading only (violated)."
  },
  {
   "property": "C108",
   "status": "proved",
   "theorems": [
    "Ptusa.Scales.C108_rounding",
    "Ptusa.Scales.C108_cone",
    "Ptusa.Scales.C108_cone_analog",
    "Ptusa.Scales.C108_cylinder",
    "Ptusa.Scales.C108_monotone"
   ],
   "note": "Exact arithmetic, pi is a parameter."
  },
  {
   "property": "C109",
   "status": "partial",
   "theorems": [
    "Ptusa.Camera.C109_output_partial",
    "Ptusa.Camera.C109_forced_violated",
    "Ptusa.Camera.C109_state_violated",
    "Ptusa.Camera.C109_ready",
    "Ptusa.Camera.C109_days_violated"
   ],
   "note": "Partial: not ready for the configured time switches the camera on, its state is always 0, the clock has 32 bits (each violated).  Readiness and results: full."
  },
  {
   "property": "C110",
   "status": "partial",
   "theorems": [
    "Ptusa.Supply.C110_shows",
    "Ptusa.Supply.C110_commands_partial",
    "Ptusa.Supply.C110_all",
    "Ptusa.Supply.C110_channel_violated",
    "Ptusa.Supply.C110_reconnect_violated",
    "Ptusa.Supply.C110_currents"
   ],
   "note": "Partial: commands for single channels are never marked valid, a reconnection writes stale states (violated).  What it shows: full."
  },
  {
   "property": "C111",
   "status": "partial",
   "theorems": [
    "Ptusa.Supply.C111_shows",
    "Ptusa.Supply.C111_untouched",
    "Ptusa.Supply.C111_command_partial",
    "Ptusa.Supply.C111_end",
    "Ptusa.Supply.C111_lost_violated",
    "Ptusa.Supply.C111_early_violated",
    "Ptusa.Supply.C111_current_violated"
   ],
   "note": "Partial: one command per second; commands before the first cycle and in pauses are lost, currents above 7 (violated).  Without commands and what it shows: full."
  },
  {
   "property": "C112",
   "status": "partial",
   "theorems": [
    "Ptusa.SaveDev.C112_reads_partial",
    "Ptusa.SaveDev.C112_lookup_partial",
    "Ptusa.SaveDev.C112_fuse_violated",
    "Ptusa.SaveDev.C112_camera_violated",
    "Ptusa.SaveDev.C112_nan_violated",
    "Ptusa.SaveDev.C112_emulator_violated"
   ],
   "note": "Partial: proved for finite values and all kinds except cameras and the emulated concentration sensor; violated by those, by negative not-a-numbers, and by the repeated key of the fuse."
  },
  {
   "property": "C113",
   "status": "partial",
   "theorems": [
    "Ptusa.IolValve.C113_shows",
    "Ptusa.IolValve.C113_tvis_shows",
    "Ptusa.IolValve.C113_output",
    "Ptusa.IolValve.C113_early_violated",
    "Ptusa.IolValve.C113_lost_violated",
    "Ptusa.IolValve.C113_unlinked_violated"
   ],
   "note": "Proved once the channels are linked in a first cycle. Violated before it (T.VIS: null pointer; ThinkTop and SORIO: the command is lost) and after a cycle without the output channel (ThinkTop, SORIO: null pointer)."
  },
  {
   "property": "C114",
   "status": "partial",
   "theorems": [
    "Ptusa.IolValve.C114_reported_partial",
    "Ptusa.IolValve.C114_tvis_reported_partial",
    "Ptusa.IolValve.C114_repeated_violated",
    "Ptusa.IolValve.C114_ignored_violated",
    "Ptusa.IolValve.C114_seat_violated",
    "Ptusa.IolValve.C114_values_violated"
   ],
   "note": "Partial: proved for a command given once. Violated for a repeated on(), for T.VIS (the command plays no part; with a lifted seat nothing is reported) and for the feedback values of SORIO. The emulator is not modelled."
  },
  {
   "property": "C115",
   "status": "proved",
   "theorems": [
    "Ptusa.CipFlow.C115_mix"
   ],
   "note": "Proved for all histories. Lua functions of a project that replace those of the line are not modelled (C115 to C121)."
  },
  {
   "property": "C116",
   "status": "partial",
   "theorems": [
    "Ptusa.CipFlow.C116_one_partial",
    "Ptusa.CipFlow.C116_pump",
    "Ptusa.CipFlow.C116_fill_violated"
   ],
   "note": "The way out of a running pump is proved without exception, that the return has a single way outside the steps that fill the small tank; violated in these, for as long as the filling lasts."
  },
  {
   "property": "C117",
   "status": "partial",
   "theorems": [
    "Ptusa.CipFlow.C117_sorted_partial",
    "Ptusa.CipFlow.C117_emptying_violated",
    "Ptusa.CipFlow.C117_circulation_violated"
   ],
   "note": "Partial: for the steps that sort the return. Violated when the circulation is emptied and by circ_medium_no_pump_stop."
  },
  {
   "property": "C118",
   "status": "partial",
   "theorems": [
    "Ptusa.CipFlow.C118_full_partial",
    "Ptusa.CipFlow.C118_selfclean_violated"
   ],
   "note": "Partial: outside the self-cleaning, in which it is violated."
  },
  {
   "property": "C119",
   "status": "partial",
   "theorems": [
    "Ptusa.CipFlow.C119_empty_partial",
    "Ptusa.CipFlow.C119_circuit_violated"
   ],
   "note": "Partial: for the steps that feed through the object; violated while the circuit is filled."
  },
  {
   "property": "C120",
   "status": "partial",
   "theorems": [
    "Ptusa.CipFlow.C120_steam_partial",
    "Ptusa.CipFlow.C120_start_violated"
   ],
   "note": "Partial: cycles that stay in their step; violated for one cycle when a step is set up."
  },
  {
   "property": "C121",
   "status": "proved",
   "theorems": [
    "Ptusa.CipFlow.C121_return",
    "Ptusa.CipFlow.C121_prepared"
   ],
   "note": "Proved for all histories."
  },
  {
   "property": "C122",
   "status": "proved",
   "theorems": [
    "Ptusa.CipFlow.C122_conc",
    "Ptusa.CipFlow.C122_equal"
   ],
   "note": "Proved over rationals for calibrated lines; rounding of floats is not modelled. C122_equal shows what a line with two equal conductivities does."
  },
  {
   "property": "C123",
   "status": "partial",
   "theorems": [
    "Ptusa.ObjText.C123_states_partial",
    "Ptusa.ObjText.C123_keys_partial",
    "Ptusa.ObjText.C123_near",
    "Ptusa.ObjText.C123_apostrophe_violated",
    "Ptusa.ObjText.C123_newline_violated",
    "Ptusa.ObjText.C123_range_violated",
    "Ptusa.ObjText.C123_nan_violated",
    "Ptusa.ObjText.C123_unnamed_violated"
   ],
   "note": "Partial: for names without apostrophe, line feed or backslash and parameters within the range of int, if integral; violated for all others. `%.2f` of a float is taken as exact decimal rounding, the buffer as large enough."
  },
  {
   "property": "C124",
   "status": "partial",
   "theorems": [
    "Ptusa.ObjText.C124_backup_partial",
    "Ptusa.ObjText.C124_nan_violated"
   ],
   "note": "Partial: for parameters within the range of int, if integral, and no negative not-a-number."
  },
  {
   "property": "C125",
   "status": "partial",
   "theorems": [
    "Ptusa.ObjText.C125_effect_partial",
    "Ptusa.ObjText.C125_shift_violated",
    "Ptusa.ObjText.C125_last_violated",
    "Ptusa.ObjText.C125_unbound_violated"
   ],
   "note": "The exact effect is proved; it is not the wanted one, so the property is violated for all controllers with two different neighbouring parameters. Clearing the mark of a reset and the storing in the memory are not modelled here."
  },
  {
   "property": "C126",
   "status": "partial",
   "theorems": [
    "Ptusa.SysText.C126_last_partial",
    "Ptusa.SysText.C126_defined_partial",
    "Ptusa.SysText.C126_state_partial",
    "Ptusa.SysText.C126_range_violated"
   ],
   "note": "Partial: for values within the type u_int_4; any other value is undefined behaviour. Storing in the memory is modelled in C04, the OPC UA commands not at all."
  },
  {
   "property": "C127",
   "status": "partial",
   "theorems": [
    "Ptusa.SysText.C127_success_partial",
    "Ptusa.SysText.C127_answer_partial",
    "Ptusa.SysText.C127_result_partial",
    "Ptusa.SysText.C127_missing_violated",
    "Ptusa.SysText.C127_fallback_violated",
    "Ptusa.SysText.C127_message_violated",
    "Ptusa.SysText.C127_overflow_violated",
    "Ptusa.SysText.C127_version_violated",
    "Ptusa.SysText.C127_long_violated"
   ],
   "note": "What success means is proved; violated in several ways, see the disagreements."
  },
  {
   "property": "C128",
   "status": "partial",
   "theorems": [
    "Ptusa.CipProg.C128_list_partial",
    "Ptusa.CipProg.C128_object_partial",
    "Ptusa.CipProg.C128_panel_partial",
    "Ptusa.CipProg.C128_last_row_violated"
   ],
   "note": "The list is proved for all histories; at the panel for up to 16 programs, violated for 17."
  },
  {
   "property": "C129",
   "status": "partial",
   "theorems": [
    "Ptusa.CipProg.C129_shown",
    "Ptusa.CipProg.C129_rinsed",
    "Ptusa.CipProg.C129_choice_partial",
    "Ptusa.CipProg.C129_panel_partial",
    "Ptusa.CipProg.C129_option_partial",
    "Ptusa.CipProg.C129_option_violated",
    "Ptusa.CipProg.C129_return_violated",
    "Ptusa.CipProg.C129_object_violated",
    "Ptusa.CipProg.C129_not_offered_violated",
    "Ptusa.CipProg.C129_stale_row_violated",
    "Ptusa.CipProg.C129_row_number_violated"
   ],
   "note": "That the name shown is right, and that the rinse is left out only where it can be, is proved for all histories. That a choice is carried out is proved for the offered numbers; violated for what is left from earlier choices and for what is not offered."
  },
  {
   "property": "C130",
   "status": "partial",
   "theorems": [
    "Ptusa.ValveMore.C130_shown_partial",
    "Ptusa.ValveMore.C130_error_only_partial",
    "Ptusa.ValveMore.C130_error_reported_partial",
    "Ptusa.ValveMore.C130_link_violated",
    "Ptusa.ValveMore.C130_config_violated",
    "Ptusa.ValveMore.C130_config_partial",
    "Ptusa.ValveMore.C130_seat_violated"
   ],
   "note": "For terminals that are set up and connected, AS-i valves with seats only in histories that do not lift one; violated otherwise."
  },
  {
   "property": "C131",
   "status": "partial",
   "theorems": [
    "Ptusa.AlarmText.C131_alarm_list_partial",
    "Ptusa.AlarmText.C131_critical_hides",
    "Ptusa.AlarmText.C131_quotation_violated"
   ],
   "note": "For texts without quotation marks, line ends and backslashes; violated for a quotation mark before a Russian letter. The buffer of 500 KiB is taken to be large enough."
  },
  {
   "property": "C132",
   "status": "partial",
   "theorems": [
    "Ptusa.AlarmText.C132_node_named_partial",
    "Ptusa.AlarmText.C132_other_node_violated",
    "Ptusa.AlarmText.C132_number_violated",
    "Ptusa.AlarmText.C132_length_violated",
    "Ptusa.AlarmText.C132_descriptions_differ",
    "Ptusa.AlarmText.C132_partner",
    "Ptusa.AlarmText.C132_function"
   ],
   "note": "For nodes numbered by their positions and descriptions of less than 200 bytes; violated otherwise."
  },
  {
   "property": "C133",
   "status": "partial",
   "theorems": [
    "Ptusa.CipDose.C133_volume",
    "Ptusa.CipDose.C133_dose_partial",
    "Ptusa.CipDose.C133_no_flow_violated",
    "Ptusa.CipDose.C133_least_violated"
   ],
   "note": "Time and volume are proved; violated for the concentration the volume is computed from when the counter stands still, and for a tank which needs nothing. Exact numbers instead of float, no overflow of the clock."
  },
  {
   "property": "C134",
   "status": "partial",
   "theorems": [
    "Ptusa.CipDose.C134_used_partial",
    "Ptusa.CipDose.C134_circulation_violated",
    "Ptusa.CipDose.C134_resume_violated"
   ],
   "note": "For a dosing without stops; violated for circulation and after a resume."
  },
  {
   "property": "C135",
   "status": "partial",
   "theorems": [
    "Ptusa.CipDose.C135_reported_partial",
    "Ptusa.CipDose.C135_carried_violated"
   ],
   "note": "For histories in which no warning is left unreported; violated otherwise."
  },
  {
   "property": "C136",
   "status": "proved",
   "theorems": [
    "Ptusa.CipDose.C136_average"
   ],
   "note": "Exact numbers instead of float; the litres are natural numbers without overflow."
  },
  {
   "property": "C137",
   "status": "partial",
   "theorems": [
    "Ptusa.TcpCl.C137_own_partial",
    "Ptusa.TcpCl.C137_refused_violated",
    "Ptusa.TcpCl.C137_stream_violated"
   ],
   "note": "For histories in which no connection fails at once (`connect` returns -1 and it is not in progress); violated otherwise."
  },
  {
   "property": "C138",
   "status": "partial",
   "theorems": [
    "Ptusa.TcpCl.C138_ends_partial",
    "Ptusa.TcpCl.C138_silence_violated"
   ],
   "note": "For the passes of the communicator in which `select` reports something; violated for silence."
  },
  {
   "property": "C139",
   "status": "partial",
   "theorems": [
    "Ptusa.TcpCl.C139_pauses",
    "Ptusa.TcpCl.C139_tries_partial",
    "Ptusa.TcpCl.C139_limit_violated",
    "Ptusa.TcpCl.C139_closed_violated"
   ],
   "note": "Attempts are more than 5 times apart in all histories, and not later than 40 times; violated for the limit of 30 and for scales which close the connection."
  },
  {
   "property": "C140",
   "status": "partial",
   "theorems": [
    "Ptusa.CipPid.C140_limits_partial",
    "Ptusa.CipPid.C140_follow_partial",
    "Ptusa.CipPid.C140_manual_violated"
   ],
   "note": "For histories without manual mode; violated after it. Exact numbers instead of float."
  },
  {
   "property": "C141",
   "status": "partial",
   "theorems": [
    "Ptusa.CipPid.C141_ramp_partial",
    "Ptusa.CipPid.C141_restart_violated",
    "Ptusa.CipPid.C141_manual_violated"
   ],
   "note": "For a start after a reset and without manual mode before; violated otherwise."
  },
  {
   "property": "C142",
   "status": "proved",
   "theorems": [
    "Ptusa.CipPid.C142_lack",
    "Ptusa.CipPid.C142_excess"
   ],
   "note": "Exact numbers instead of float."
  },
  {
   "property": "C143",
   "status": "partial",
   "theorems": [
    "Ptusa.CipPid.C143_off",
    "Ptusa.CipPid.C143_manual",
    "Ptusa.CipPid.C143_leave_partial",
    "Ptusa.CipPid.C143_jump_violated"
   ],
   "note": "Off and manual are proved; the end of the manual mode is proved for one calculation and violated for the next one."
  },
  {
   "property": "C144",
   "status": "partial",
   "theorems": [
    "Ptusa.MainLoop.C144_outputs_partial",
    "Ptusa.MainLoop.C144_defined",
    "Ptusa.MainLoop.C144_defined_violated",
    "Ptusa.MainLoop.C144_stop",
    "Ptusa.MainLoop.C144_silent",
    "Ptusa.MainLoop.C144_state_violated"
   ],
   "note": "For commands with a number of a state it is proved for motors and violated for signals, lamps and sirens. WAGO couplers with digital channels, devices DO1 and motors of the sub type M."
  },
  {
   "property": "C145",
   "status": "partial",
   "theorems": [
    "Ptusa.MainLoop.C145_reaction_partial"
   ],
   "note": "WAGO couplers with digital channels whose connection is up; devices DO1 and motors of the sub type M."
  },
  {
   "property": "C146",
   "status": "partial",
   "theorems": [
    "Ptusa.MainLoop.C146_denied",
    "Ptusa.MainLoop.C146_read_partial",
    "Ptusa.MainLoop.C146_manual_violated"
   ],
   "note": "Refusal and reading are proved; success is answered though the device is in manual mode and nothing is done."
  },
  {
   "property": "C147",
   "status": "partial",
   "theorems": [
    "Ptusa.Guard.C147_pauses_partial",
    "Ptusa.Guard.C147_durations_partial",
    "Ptusa.Guard.C147_time_partial",
    "Ptusa.Guard.C147_only_partial",
    "Ptusa.Guard.C147_one_message_partial",
    "Ptusa.Guard.C147_switched_off_partial",
    "Ptusa.Guard.C147_extra_violated",
    "Ptusa.Guard.C147_seats_violated"
   ],
   "note": "Proved for devices of the operation itself and of its main step in groups; violated for active extra steps and for devices whose seats are opened."
  },
  {
   "property": "C148",
   "status": "partial",
   "theorems": [
    "Ptusa.Guard.C148_refused_partial",
    "Ptusa.Guard.C148_first_step_violated"
   ],
   "note": "Proved for devices of the operation itself; violated for those of the first step."
  },
  {
   "property": "C149",
   "status": "proved",
   "theorems": [
    "Ptusa.Guard.C149_request",
    "Ptusa.Guard.C149_reports"
   ],
   "note": "`set_mode` is taken to succeed when `check_operation_on` says so; they make the same checks. The clock does not go back within a request."
  },
  {
   "property": "C150",
   "status": "partial",
   "theorems": [
    "Ptusa.Guard.C150_groups",
    "Ptusa.Guard.C150_seats_partial",
    "Ptusa.Guard.C150_seats_violated"
   ],
   "note": "Proved for groups of actions; for seats when the groups are given in turn, violated otherwise."
  },
  {
   "property": "C151",
   "status": "partial",
   "theorems": [
    "Ptusa.Boot.C151_ready",
    "Ptusa.Boot.C151_loop_partial",
    "Ptusa.Boot.C151_order",
    "Ptusa.Boot.C151_help",
    "Ptusa.Boot.C151_init_violated"
   ],
   "note": "C151_init_violated: a failing function init of the project (and init_profibus, get_PAC_id) is only reported, the loop is entered all the same."
  },
  {
   "property": "C152",
   "status": "proved",
   "theorems": [
    "Ptusa.Boot.C152_header",
    "Ptusa.Boot.C152_negative",
    "Ptusa.Boot.C152_foreign",
    "Ptusa.Boot.C152_refused"
   ],
   "note": "Versions are read as the code does it; numbers beyond int are undefined behaviour and excluded from the statement."
  },
  {
   "property": "C153",
   "status": "partial",
   "theorems": [
    "Ptusa.Boot.C153_safe_partial",
    "Ptusa.Boot.C153_room",
    "Ptusa.Boot.C153_long_violated"
   ],
   "note": "C153_long_violated: a system directory of 90 bytes or more overflows char path[100]. C153_room: up to 78 bytes are safe."
  },
  {
   "property": "C154",
   "status": "partial",
   "theorems": [
    "Ptusa.Boot.C154_ports_partial",
    "Ptusa.Boot.C154_large_violated"
   ],
   "note": "C154_large_violated: for p > 65033 the port of Modbus is p + 502 modulo 65536, for 65034 one the system chooses."
  },
  {
   "property": "C155",
   "status": "partial",
   "theorems": [
    "Ptusa.Boot.C155_checksum_partial",
    "Ptusa.Boot.C155_project_partial",
    "Ptusa.Boot.C155_project_violated",
    "Ptusa.Boot.C155_damage_violated"
   ],
   "note": "C155_damage_violated: solve_CRC is only used in the exchange with the server; the start compares the size of the parameters only. C155_project_partial and C155_project_violated: the check sum tells projects apart by the lower half of their number only."
  },
  {
   "property": "C156",
   "status": "partial",
   "theorems": [
    "Ptusa.CplSock.C156_sockets_partial",
    "Ptusa.CplSock.C156_off_partial",
    "Ptusa.CplSock.C156_safe_partial",
    "Ptusa.CplSock.C156_zero_violated",
    "Ptusa.CplSock.C156_many_violated"
   ],
   "note": "Proved for a process with an open standard input that uses less than 1024 descriptors. C156_zero_violated: descriptor 0 means no socket to disconnect, so it stays open. C156_many_violated: FD_SET beyond the set."
  },
  {
   "property": "C157",
   "status": "partial",
   "theorems": [
    "Ptusa.AnaDev.C157_state",
    "Ptusa.AnaDev.C157_value_partial",
    "Ptusa.AnaDev.C157_level",
    "Ptusa.AnaDev.C157_temperature_partial",
    "Ptusa.AnaDev.C157_temperature_analog_partial",
    "Ptusa.AnaDev.C157_value_violated",
    "Ptusa.AnaDev.C157_unbound_violated",
    "Ptusa.AnaDev.C157_module_violated"
   ],
   "note": "Proved for states of AI1 classes, volumes of levels, and thermometers on modules of their kind. Violated: values of pressure and analog inputs (correction minus one), thermometers without a channel (state 1 and temperature 0), resistance thermometers on a current module."
  },
  {
   "property": "C158",
   "status": "partial",
   "theorems": [
    "Ptusa.AnaDev.C158_setpoint_partial",
    "Ptusa.AnaDev.C158_blink_partial",
    "Ptusa.AnaDev.C158_reported",
    "Ptusa.AnaDev.C158_defined_partial",
    "Ptusa.AnaDev.C158_early_violated",
    "Ptusa.AnaDev.C158_unbound_violated",
    "Ptusa.AnaDev.C158_range_violated"
   ],
   "note": "Proved for valves with a channel after their first evaluation. Violated: earlier set points go to a stub shared by all valves; a valve without a channel dereferences a null pointer; set points are not limited."
  },
  {
   "property": "C159",
   "status": "partial",
   "theorems": [
    "Ptusa.Rfid.C159_tags_partial",
    "Ptusa.Rfid.C159_eleven_violated",
    "Ptusa.Rfid.C159_long_violated",
    "Ptusa.Rfid.C159_twice_violated",
    "Ptusa.Rfid.C159_index_violated"
   ],
   "note": "Proved when the driver reports 16-bit words, at most nine per code, at most ten tags, and none that is there. Violated otherwise: the eleventh tag and codes of ten words are written beyond their arrays; a tag reported twice stays after it is gone; numbers below 1 read before the array."
  },
  {
   "property": "C160",
   "status": "proved",
   "theorems": [
    "Ptusa.Rfid.C160_error",
    "Ptusa.Rfid.C160_connection",
    "Ptusa.Rfid.C160_reading"
   ],
   "note": "Proved for all histories; the connection as in the specification for reports as in C159."
  },
  {
   "property": "C161",
   "status": "partial",
   "theorems": [
    "Ptusa.CipSig.C161_ready_partial",
    "Ptusa.CipSig.C161_washed_partial",
    "Ptusa.CipSig.C161_rush_violated",
    "Ptusa.CipSig.C161_edit_violated"
   ],
   "note": "Proved for histories in which the recipe of a washing is not chosen again in the very next cycle, and a recipe chosen again has the same output. Both conditions are needed (C161_rush_violated, C161_edit_violated)."
  },
  {
   "property": "C162",
   "status": "proved",
   "theorems": [
    "Ptusa.CipSig.C162_water",
    "Ptusa.CipSig.C162_switch"
   ],
   "note": "Proved for all histories."
  },
  {
   "property": "C163",
   "status": "partial",
   "theorems": [
    "Ptusa.CipLua.C163_defined_partial",
    "Ptusa.CipLua.C163_builtin",
    "Ptusa.CipLua.C163_reset",
    "Ptusa.CipLua.C163_forgotten_violated",
    "Ptusa.CipLua.C163_stack",
    "Ptusa.CipLua.C163_gone_violated"
   ],
   "note": "Proved for 25 functions. C163_forgotten_violated: cip_FillCirc, cip_InitFillCirc, cip_OporCirc and cip_InitOporCirc are never looked up. C163_gone_violated: the program ends when the object of the line is no longer a table."
  },
  {
   "property": "C164",
   "status": "partial",
   "theorems": [
    "Ptusa.CipLua.C164_failed",
    "Ptusa.CipLua.C164_pause_partial",
    "Ptusa.CipLua.C164_block_partial",
    "Ptusa.CipLua.C164_pause_violated",
    "Ptusa.CipLua.C164_block_violated"
   ],
   "note": "Proved for projects that define neither cip_Stop nor cip_StopDev; C164_pause_violated and C164_block_violated show that a failing script leaves the devices running while the line is shown as paused or blocked. C164_failed says what a failing function of the project does in general."
  },
  {
   "property": "C165",
   "status": "partial",
   "theorems": [
    "Ptusa.Kbus.C165_read",
    "Ptusa.Kbus.C165_digital",
    "Ptusa.Kbus.C165_analog_violated",
    "Ptusa.Kbus.C165_analog_partial"
   ],
   "note": "Digital inputs: all histories. Analog inputs: for histories in which a reading that fails leaves the buffer alone; C165_analog_violated shows that otherwise they take what is in the buffer."
  },
  {
   "property": "C166",
   "status": "partial",
   "theorems": [
    "Ptusa.Kbus.C166_write",
    "Ptusa.Kbus.C166_report_violated"
   ],
   "note": "Values and positions: all histories. The report of outputs ignores the results of the library (C166_report_violated)."
  },
  {
   "property": "C167",
   "status": "partial",
   "theorems": [
    "Ptusa.Kbus.C167_start_partial",
    "Ptusa.Kbus.C167_missing_violated"
   ],
   "note": "Proved for lists that contain the bus; C167_missing_violated for all others."
  },
  {
   "property": "C168",
   "status": "partial",
   "theorems": [
    "Ptusa.IoConf.C168_defined_partial",
    "Ptusa.IoConf.C168_nodes_partial",
    "Ptusa.IoConf.C168_apart_partial",
    "Ptusa.IoConf.C168_text_violated",
    "Ptusa.IoConf.C168_early_violated",
    "Ptusa.IoConf.C168_name_violated"
   ],
   "note": "Exact condition for scripts to be defined; contents for all of these. Long names and addresses, analog channels before their node and missing names are undefined."
  },
  {
   "property": "C169",
   "status": "partial",
   "theorems": [
    "Ptusa.IoConf.C169_bound_partial",
    "Ptusa.IoConf.C169_again_violated",
    "Ptusa.IoConf.C169_early_violated"
   ],
   "note": "Proved for scripts that add nodes before binding channels and not again."
  },
  {
   "property": "C170",
   "status": "partial",
   "theorems": [
    "Ptusa.CipDev.C170_bound_partial",
    "Ptusa.CipDev.C170_refused_partial",
    "Ptusa.CipDev.C170_first_violated",
    "Ptusa.CipDev.C170_other_violated",
    "Ptusa.CipDev.C170_negative_violated"
   ],
   "note": "Proved for projects listed as C80 asks, numbers below 2^31, and devices other than the first of the project, which is never used (C170_first_violated)."
  },
  {
   "property": "C171",
   "status": "partial",
   "theorems": [
    "Ptusa.CipDev.C171_checked_partial",
    "Ptusa.CipDev.C171_rest_violated",
    "Ptusa.CipDev.C171_options_violated"
   ],
   "note": "Proved for the signals up to the one that fails; those behind it keep the devices of the object before."
  },
  {
   "property": "C172",
   "status": "partial",
   "theorems": [
    "Ptusa.CipDev.C172_options_partial",
    "Ptusa.CipDev.C172_negative_violated"
   ],
   "note": "Proved for all values that are numbers of 32 bits; negative ones are undefined."
  },
  {
   "property": "C173",
   "status": "partial",
   "theorems": [
    "Ptusa.Panel.C173_write_partial",
    "Ptusa.Panel.C173_read",
    "Ptusa.Panel.C173_coils",
    "Ptusa.Panel.C173_coil_write",
    "Ptusa.Panel.C173_absent",
    "Ptusa.Panel.C173_half_violated",
    "Ptusa.Panel.C173_zero_violated"
   ],
   "note": "A register alone cannot be written, number 0 is not refused: `_violated`. Bytes behind the message count as zero (Tcp model)."
  },
  {
   "property": "C174",
   "status": "partial",
   "theorems": [
    "Ptusa.Panel.C174_sites",
    "Ptusa.Panel.C174_line",
    "Ptusa.Panel.C174_counter_violated",
    "Ptusa.Panel.C174_defined",
    "Ptusa.Panel.C174_uses",
    "Ptusa.Panel.C174_tanks",
    "Ptusa.Panel.C174_counter_zero",
    "Ptusa.Panel.C174_twice_violated"
   ],
   "note": "Reading a counter of a line that does not exist and numbers 100 further: `_violated`."
  },
  {
   "property": "C175",
   "status": "partial",
   "theorems": [
    "Ptusa.Panel.C175_list_partial",
    "Ptusa.Panel.C175_busy",
    "Ptusa.Panel.C175_select_violated"
   ],
   "note": "The value -1: `_violated`."
  },
  {
   "property": "C176",
   "status": "partial",
   "theorems": [
    "Ptusa.Panel.C176_par_partial",
    "Ptusa.Panel.C176_behind",
    "Ptusa.Panel.C176_last_violated",
    "Ptusa.Panel.C176_zero_violated"
   ],
   "note": "Last parameter and number 0: `_violated`; a value with the bits FFFFFFFF is shown as -1000 (C-claims of CipRec)."
  },
  {
   "property": "C177",
   "status": "proved",
   "theorems": [
    "Ptusa.Panel.C177_flag"
   ],
   "note": "Lines numbered from 1 to at most 10, as many as `Mdls` can hold."
  },
  {
   "property": "C178",
   "status": "partial",
   "theorems": [
    "Ptusa.CipText.C178_read_partial",
    "Ptusa.CipText.C178_keys_partial",
    "Ptusa.CipText.C178_near",
    "Ptusa.CipText.C178_apostrophe_violated",
    "Ptusa.CipText.C178_forged_violated"
   ],
   "note": "Partial: for texts without apostrophe, line feed and backslash and printable values. C178_apostrophe_violated: the server and the panel can send a car number with an apostrophe, which makes the whole description unreadable; C178_forged_violated: a car number of 12 characters makes the server read step 0 whatever the line does."
  },
  {
   "property": "C179",
   "status": "partial",
   "theorems": [
    "Ptusa.CipText.C179_floats_partial",
    "Ptusa.CipText.C179_uints_partial",
    "Ptusa.CipText.C179_recipes_partial",
    "Ptusa.CipText.C179_regulators_partial",
    "Ptusa.CipText.C179_command_partial",
    "Ptusa.CipText.C179_command_violated",
    "Ptusa.CipText.C179_cars_partial",
    "Ptusa.CipText.C179_numbers_partial",
    "Ptusa.CipText.C179_switches_partial",
    "Ptusa.CipText.C179_range",
    "Ptusa.CipText.C179_unknown",
    "Ptusa.CipText.C179_negative_violated",
    "Ptusa.CipText.C179_bytes_violated"
   ],
   "note": "Partial: for non-negative values of unsigned parameters and texts that fit. C179_negative_violated: a negative value for S_PAR_UI, RT_PAR_UI or CMD is undefined behaviour (float to unsigned). C179_bytes_violated: 12 to 14 characters of four bytes leave no terminating zero in the 45 bytes of a car number."
  },
  {
   "property": "C180",
   "status": "partial",
   "theorems": [
    "Ptusa.CipText.C180_apart_partial",
    "Ptusa.CipText.C180_shared_violated"
   ],
   "note": "Partial: only if every line of the station has self-cleaning. C180_shared_violated: otherwise scparams ends as an alias of parpar, whatever the order: the command for self-cleaning overwrites the parameter of the station and the description never shows PAR_SELFCLEAN."
  },
  {
   "property": "C181",
   "status": "proved",
   "theorems": [
    "Ptusa.Swmrg.C181_alone",
    "Ptusa.Swmrg.C181_served",
    "Ptusa.Swmrg.C181_at_once"
   ],
   "note": "Critical sections are atomic; a semaphore gives its units to any waiting thread; Done is called by threads with access only."
  },
  {
   "property": "C182",
   "status": "partial",
   "theorems": [
    "Ptusa.Swmrg.C182_writer_partial",
    "Ptusa.Swmrg.C182_reader_violated"
   ],
   "note": "C182_writer_partial: while a writer waits fewer than n readings begin. C182_reader_violated: two writers in turn can keep a reader out for any number of rounds (a note in the source says so)."
  },
  {
   "property": "C183",
   "status": "partial",
   "theorems": [
    "Ptusa.Profibus.C183_reads_partial",
    "Ptusa.Profibus.C183_last_violated",
    "Ptusa.Profibus.C183_negative_violated",
    "Ptusa.Profibus.C183_place_violated"
   ],
   "note": "Partial: C183_last_violated (last word and double word always 0), C183_negative_violated (double words from 2^31 on are an overflow of int), C183_place_violated (negative places)."
  },
  {
   "property": "C184",
   "status": "partial",
   "theorems": [
    "Ptusa.Profibus.C184_sent_partial",
    "Ptusa.Profibus.C184_result",
    "Ptusa.Profibus.C184_blocked_violated",
    "Ptusa.Profibus.C184_last_violated"
   ],
   "note": "Partial: for cycles in which the library works. C184_blocked_violated: if the watchdog or reading fails nothing is sent, and after a failed ReadBytes the lock is kept; C184_last_violated: the last word cannot be set."
  },
  {
   "property": "C185",
   "status": "partial",
   "theorems": [
    "Ptusa.CipSet.C185_part_partial",
    "Ptusa.CipSet.C185_fill",
    "Ptusa.CipSet.C185_empty",
    "Ptusa.CipSet.C185_circulation",
    "Ptusa.CipSet.C185_ahead",
    "Ptusa.CipSet.C185_rinse_violated",
    "Ptusa.CipSet.C185_heated"
   ],
   "note": "Partial: C185_rinse_violated (the circulation of rinse water, steps 10 and 13, begins with the heater on and the task 0, not the temperature of the rinse). Float rounding and the hand mode of regulators are not modelled."
  },
  {
   "property": "C186",
   "status": "partial",
   "theorems": [
    "Ptusa.CipSet.C186_amount_partial",
    "Ptusa.CipSet.C186_pumps",
    "Ptusa.CipSet.C186_defined",
    "Ptusa.CipSet.C186_negative_violated"
   ],
   "note": "Partial: C186_negative_violated (a negative flow makes the conversion of the limit undefined)."
  },
  {
   "property": "C187",
   "status": "partial",
   "theorems": [
    "Ptusa.CipSet.C187_time_partial",
    "Ptusa.CipSet.C187_negative_violated"
   ],
   "note": "Partial: for times below 10^9 s and less than 2^32 ms of good time; C187_negative_violated (a negative time is an undefined conversion)."
  },
  {
   "property": "C188",
   "status": "partial",
   "theorems": [
    "Ptusa.CipSet.C188_rest_partial",
    "Ptusa.CipSet.C188_rest_violated",
    "Ptusa.CipSet.C188_level",
    "Ptusa.CipSet.C188_rest_ends_partial",
    "Ptusa.CipSet.C188_rinse_partial",
    "Ptusa.CipSet.C188_time_partial",
    "Ptusa.CipSet.C188_zero_violated",
    "Ptusa.CipSet.C188_drain_violated"
   ],
   "note": "Partial: C188_rest_violated (step 176), C188_zero_violated (a step with amount 0 never ends), C188_drain_violated (two drain times are not used)."
  },
  {
   "property": "C189",
   "status": "partial",
   "theorems": [
    "Ptusa.CipEnd.C189_end_partial",
    "Ptusa.CipEnd.C189_volume_partial",
    "Ptusa.CipEnd.C189_no_error_partial",
    "Ptusa.CipEnd.C189_cold_violated"
   ],
   "note": "Partial: C189_cold_violated (the last rinse ends at once when the return shows less than 5 degrees, except in one program); C189_volume_partial for all other cases."
  },
  {
   "property": "C190",
   "status": "partial",
   "theorems": [
    "Ptusa.CipEnd.C190_end_partial",
    "Ptusa.CipEnd.C190_no_return_partial",
    "Ptusa.CipEnd.C190_conc_partial",
    "Ptusa.CipEnd.C190_returned_partial",
    "Ptusa.CipEnd.C190_conc_violated"
   ],
   "note": "Partial: C190_conc_violated (the time of the concentration goes on while it fits). Steps of less than 49 days, times in whole seconds."
  },
  {
   "property": "C191",
   "status": "partial",
   "theorems": [
    "Ptusa.CipEnd.C191_end_partial",
    "Ptusa.CipEnd.C191_limit_partial",
    "Ptusa.CipEnd.C191_device_partial",
    "Ptusa.CipEnd.C191_line_partial",
    "Ptusa.CipEnd.C191_device_violated"
   ],
   "note": "Partial: C191_device_violated (with a device that never comes on there is no limit). Steps of less than 49 days, times in whole seconds."
  },
  {
   "property": "C192",
   "status": "partial",
   "theorems": [
    "Ptusa.CipEnd.C192_fill_partial",
    "Ptusa.CipEnd.C192_empty_partial",
    "Ptusa.CipEnd.C192_zero_violated"
   ],
   "note": "Partial: C192_zero_violated (with a volume of 0 the steps end in their first cycle). Steps of less than 49 days, times in whole seconds."
  },
  {
   "property": "C193",
   "status": "proved",
   "theorems": [
    "Ptusa.CipEnd.C193_dose",
    "Ptusa.CipEnd.C193_rinse"
   ],
   "note": "the timers, the flow through the line and the answers of the concentration check are given by the history; the step numbers are those of CipEnd."
  },
  {
   "property": "C194",
   "status": "partial",
   "theorems": [
    "Ptusa.Start.C194_on",
    "Ptusa.Start.C194_reason",
    "Ptusa.Start.C194_command_partial",
    "Ptusa.Start.C194_pause_violated",
    "Ptusa.Start.C194_step_violated",
    "Ptusa.Start.C194_kinds_violated"
   ],
   "note": "partial for the command: after a pause command for an operation that is off, the next command 'on' starts it without any check (C194_pause_violated); required signals of a step are never checked (C194_step_violated); temperature and differential pressure switches are refused as inputs (C194_kinds_violated)."
  },
  {
   "property": "C195",
   "status": "partial",
   "theorems": [
    "Ptusa.ColDir.C195_outputs",
    "Ptusa.ColDir.C195_discrete",
    "Ptusa.ColDir.C195_steady_partial",
    "Ptusa.ColDir.C195_blink_partial",
    "Ptusa.ColDir.C195_once_violated",
    "Ptusa.ColDir.C195_state",
    "Ptusa.ColDir.C195_unknown",
    "Ptusa.ColDir.C195_again_violated"
   ],
   "note": "partial: a light which is ordered to blink by one command stays dark though it is published as lit (C195_once_violated), and setting the sequence again leaves two lights on one output (C195_again_violated)."
  },
  {
   "property": "C196",
   "status": "partial",
   "theorems": [
    "Ptusa.OpcUa.C196_devices",
    "Ptusa.OpcUa.C196_answered_partial",
    "Ptusa.OpcUa.C196_info_partial",
    "Ptusa.OpcUa.C196_info_violated",
    "Ptusa.OpcUa.C196_failed_violated",
    "Ptusa.OpcUa.C196_second_start"
   ],
   "note": "partial: after the server has been switched off, later starts by a command show neither running time nor version (C196_info_violated); a failed start leaves it published and saved as switched on, 'on' again does nothing, and the controller does not start any more while the start of the server fails (C196_failed_violated). The library is taken as a store of variables."
  },
  {
   "property": "C197",
   "status": "partial",
   "theorems": [
    "Ptusa.SyncCl.C197_own_partial",
    "Ptusa.SyncCl.C197_fresh",
    "Ptusa.SyncCl.C197_stream",
    "Ptusa.SyncCl.C197_behind_violated",
    "Ptusa.SyncCl.C197_closed_violated"
   ],
   "note": "Proved for answers that have arrived completely when they are read; for any history: nothing of an earlier connection is returned, and on one connection nothing is lost, doubled or exchanged. Not true in general: after an answer that arrived in two parts every later call of the same size returns 1 with the answer to the request before; a connection closed by the device is not given up at once."
  },
  {
   "property": "C198",
   "status": "partial",
   "theorems": [
    "Ptusa.Medium.C198_defined_partial",
    "Ptusa.Medium.C198_chosen_partial",
    "Ptusa.Medium.C198_refused_partial",
    "Ptusa.Medium.C198_kept_partial",
    "Ptusa.Medium.C198_stale_violated",
    "Ptusa.Medium.C198_empty_violated"
   ],
   "note": "Proved for orders and choices that fit an int: loading, refusal, and that nothing else ever changes what is in use. Not true: an edit of the chosen recipe does not reach the station until it is chosen again; an empty recipe can be chosen and sets the wanted concentration and all limits to 0."
  },
  {
   "property": "C199",
   "status": "partial",
   "theorems": [
    "Ptusa.Medium.C199_set_partial",
    "Ptusa.Medium.C199_moves_partial",
    "Ptusa.Medium.C199_clear_partial",
    "Ptusa.Medium.C199_copy_partial",
    "Ptusa.Medium.C199_mixed_violated",
    "Ptusa.Medium.C199_default_violated",
    "Ptusa.Medium.C199_index_violated",
    "Ptusa.Medium.C199_reach_partial"
   ],
   "note": "Proved for numbers of values 1 to 24: setting, moving, clear, copy and paste within a medium. Not true: defaults only marks the recipe as unused; the copy is shared by the media, so a caustic recipe can be pasted as an acid; numbers from 25 on write into the next recipe or behind the memory."
  },
  {
   "property": "C200",
   "status": "partial",
   "theorems": [
    "Ptusa.TextFile.C200_lines_partial",
    "Ptusa.TextFile.C200_others",
    "Ptusa.TextFile.C200_blocks",
    "Ptusa.TextFile.C200_long_violated",
    "Ptusa.TextFile.C200_zero_violated",
    "Ptusa.TextFile.C200_open_violated",
    "Ptusa.TextFile.C200_stdin_violated",
    "Ptusa.TextFile.C200_leak_violated"
   ],
   "note": "Proved for lines with fewer than 200 bytes and without a zero byte. Not true: a line of 200 bytes makes the code write behind its buffer; looking ahead moves on when the line has a zero byte; the results of opening are the opposite of the documented ones; an object that is not open reads the standard input; a second opening loses the first file."
  },
  {
   "property": "C201",
   "status": "partial",
   "theorems": [
    "Ptusa.DevCmd.C201_named_partial",
    "Ptusa.DevCmd.C201_last_partial",
    "Ptusa.DevCmd.C201_value_partial",
    "Ptusa.DevCmd.C201_refused_partial",
    "Ptusa.DevCmd.C201_prefix_violated",
    "Ptusa.DevCmd.C201_published_violated",
    "Ptusa.DevCmd.C201_feedback_violated",
    "Ptusa.DevCmd.C201_ack_violated",
    "Ptusa.DevCmd.C201_short_violated",
    "Ptusa.DevCmd.C201_range_violated",
    "Ptusa.DevCmd.C201_no_parameter_partial"
   ],
   "note": "Proved for the published names and for names with letters that no class uses. Not true: mostly only the first letter is looked at, so that the published MAX_FRQ switches a motor into manual mode; cameras and IO-Link valves answer 0 to unknown names; a short name with D reads behind its end; a large flow does not fit its variable."
  },
  {
   "property": "C202",
   "status": "partial",
   "theorems": [
    "Ptusa.PlcNext.C202_once_partial",
    "Ptusa.PlcNext.C202_stop_partial",
    "Ptusa.PlcNext.C202_start",
    "Ptusa.PlcNext.C202_failed_partial",
    "Ptusa.PlcNext.C202_failed_violated",
    "Ptusa.PlcNext.C202_stop_violated",
    "Ptusa.PlcNext.C202_again_violated",
    "Ptusa.PlcNext.C202_serve_partial",
    "Ptusa.PlcNext.C202_switch_partial",
    "Ptusa.PlcNext.C202_serve_violated"
   ],
   "note": "Proved: loaded once and complete when loading succeeds; Stop after loading; Start; a failed project is not tried again and does nothing without Start. Not true: when Start came first, the call after a failed loading controls with an incomplete project; a Stop before or during loading is lost; a failing OPC UA server makes every call load the project again; after Stop and Start the OPC UA server never answers again."
  },
  {
   "property": "C203",
   "status": "partial",
   "theorems": [
    "Ptusa.RecFile.C203_round_trip",
    "Ptusa.RecFile.C203_objects",
    "Ptusa.RecFile.C203_restart_partial",
    "Ptusa.RecFile.C203_writes",
    "Ptusa.RecFile.C203_not_opened_violated",
    "Ptusa.RecFile.C203_early_violated",
    "Ptusa.RecFile.C203_crash_violated",
    "Ptusa.RecFile.C203_starved_violated"
   ],
   "note": "Partial: a file that cannot be opened loses the recipe for good, so does a failure of power within ten seconds or while the file is written, and evaluations more than ten seconds apart can put it off for ever."
  },
  {
   "property": "C204",
   "status": "partial",
   "theorems": [
    "Ptusa.Led.C204_blinks",
    "Ptusa.Led.C204_colour",
    "Ptusa.Led.C204_right_colour_partial",
    "Ptusa.Led.C204_late_violated",
    "Ptusa.Led.C204_missed_violated",
    "Ptusa.Led.C204_lamp"
   ],
   "note": "Partial: errors that come while the lamp is green leave it green until the end of the phase, and errors that come and go between the moments when it is lit are never shown."
  },
  {
   "property": "C205",
   "status": "partial",
   "theorems": [
    "Ptusa.RecSave.C205_saved_partial",
    "Ptusa.RecSave.C205_one_file",
    "Ptusa.RecSave.C205_starved_violated",
    "Ptusa.RecSave.C205_not_opened_violated",
    "Ptusa.RecSave.C205_marks",
    "Ptusa.RecSave.C205_crash_violated",
    "Ptusa.RecSave.C205_no_marks"
   ],
   "note": "Partial: an item that is changed again every ten seconds keeps all later ones from being saved; a file which cannot be opened once is not written until the next change; a file cut off by a failure of power is read into uninitialised variables."
  },
  {
   "property": "C206",
   "status": "partial",
   "theorems": [
    "Ptusa.ActCfg.Props.C206_devices_partial",
    "Ptusa.ActCfg.Props.C206_no_missing_subgroup",
    "Ptusa.ActCfg.Props.C206_values",
    "Ptusa.ActCfg.Props.C206_names_partial",
    "Ptusa.ActCfg.Props.C206_unknown_name_violated",
    "Ptusa.ActCfg.Props.C206_state_target_violated",
    "Ptusa.ActCfg.Props.C206_seats_partial",
    "Ptusa.ActCfg.Props.C206_seat_lost_violated",
    "Ptusa.ActCfg.Props.C206_seats_stay_violated"
   ],
   "note": "Partial: actions without properties acknowledge any name; the target of a jump to a state cannot be read under its name; a seat for a group that does not follow the last one is lost and leaves an empty group; clear_dev does not clear seats."
  },
  {
   "property": "C207",
   "status": "partial",
   "theorems": [
    "Ptusa.ObjMgr.Props.C207_evaluate_partial",
    "Ptusa.ObjMgr.Props.C207_late_eval_violated",
    "Ptusa.ObjMgr.Props.C207_numbers",
    "Ptusa.ObjMgr.Props.C207_search",
    "Ptusa.ObjMgr.Props.C207_extra_step_partial",
    "Ptusa.ObjMgr.Props.C207_unknown_command_violated"
   ],
   "note": "Partial: a function eval which appears after the first cycle is never run; an unknown command for an additional step is answered as done."
  },
  {
   "property": "C208",
   "status": "partial",
   "theorems": [
    "Ptusa.ParInit.Props.C208_saved",
    "Ptusa.ParInit.Props.C208_runtime_partial",
    "Ptusa.ParInit.Props.C208_rt_functions_violated",
    "Ptusa.ParInit.Props.C208_restart_violated",
    "Ptusa.ParInit.Props.C208_washing_line_violated",
    "Ptusa.ParInit.Props.C208_washing_line_partial"
   ],
   "note": "Partial: holds for saved parameters. Values from init_rt_params_uint/float are never in force; values from init_runtime_params are gone after a restart; a washing line loses the parameters of its regulators at a reset."
  },
  {
   "property": "C209",
   "status": "partial",
   "theorems": [
    "Ptusa.CipLines.Props.C209_lines_partial",
    "Ptusa.CipLines.Props.C209_numbers_violated",
    "Ptusa.CipLines.Props.C209_destroyed_violated"
   ],
   "note": "Holds only for lines numbered 1..n without gaps, n at most 10, each set up once; any other numbering is undefined behaviour (violated), and so is any check after a line was destroyed."
  },
  {
   "property": "C210",
   "status": "partial",
   "theorems": [
    "Ptusa.PbInit.Props.C210_started_partial",
    "Ptusa.PbInit.Props.C210_start",
    "Ptusa.PbInit.Props.C210_failed_start_violated",
    "Ptusa.PbInit.Props.C210_close_violated"
   ],
   "note": "After a successful start the protocol is kept; violated after a failed start (cycles go on and trigger a watchdog which was not started) and at the end (the device is never closed, the interface is left twice)."
  },
  {
   "property": "C211",
   "status": "partial",
   "theorems": [
    "Ptusa.PidLink.Props.C211_chain_partial",
    "Ptusa.PidLink.Props.C211_ring_violated",
    "Ptusa.PidLink.Props.C211_two_violated",
    "Ptusa.PidLink.Props.C211_self",
    "Ptusa.PidLink.Props.C211_off",
    "Ptusa.PidLink.Props.C211_regulator_off"
   ],
   "note": "Proved for every chain with an end; violated for rings of two or more regulators, which the program allows (only the ring of one is refused): the calls never end."
  },
  {
   "property": "C212",
   "status": "partial",
   "theorems": [
    "Ptusa.SmartPtr.Props.C212_owned_partial",
    "Ptusa.SmartPtr.Props.C212_all_deleted_partial",
    "Ptusa.SmartPtr.Props.C212_copy_violated",
    "Ptusa.SmartPtr.Props.C212_self_violated",
    "Ptusa.SmartPtr.Props.C212_replace_violated"
   ],
   "note": "Proved for histories of assigning new objects and freeing; violated for the implicit copy (deleted twice), for assigning a pointer to itself (dangling, then deleted twice) and for `replace_without_free` (lost, used in tests only)."
  },
  {
   "property": "C213",
   "status": "partial",
   "theorems": [
    "Ptusa.MemDev.C213_stored_is_read_back_partial",
    "Ptusa.MemDev.C213_file_never_undefined",
    "Ptusa.MemDev.C213_chip_write_defined",
    "Ptusa.MemDev.C213_unzeroed_buffer_violated",
    "Ptusa.MemDev.C213_not_opened_violated",
    "Ptusa.MemDev.C213_descriptor_zero_rescued",
    "Ptusa.MemDev.C213_windows_emptied_violated",
    "Ptusa.MemDev.C213_before_handover_violated",
    "Ptusa.MemDev.C213_write_result"
   ],
   "note": "Proved for histories where every start is served and the reader zeroes its buffer (as params_manager does). Violated for buffers not zeroed (a short read leaves them), when the file cannot be opened (writes dropped silently), on Windows when an existing file cannot be opened but created (emptied), on PLCnext before init_ex."
  },
  {
   "property": "C214",
   "status": "partial",
   "theorems": [
    "Ptusa.Article.C214_created_device",
    "Ptusa.Article.C214_reading_by_article",
    "Ptusa.Article.C214_last_article_partial",
    "Ptusa.Article.C214_unknown_after_known_violated",
    "Ptusa.Article.C214_own_text_violated"
   ],
   "note": "Proved for a device as created (one article) and for histories ending in a known article. Violated when an unknown article follows a known one (the old layout stays) and when a device is handed its own article text (deleted before it is copied)."
  },
  {
   "property": "C215",
   "status": "partial",
   "theorems": [
    "Ptusa.WinCl.C215_one_socket_partial",
    "Ptusa.WinCl.C215_failed_exchange",
    "Ptusa.WinCl.C215_option_violated",
    "Ptusa.WinCl.C215_connecting_violated",
    "Ptusa.WinCl.C215_closed_kept_violated"
   ],
   "note": "Proved for histories where the options of sockets can be set. Violated otherwise (each attempt leaves one more socket open), when an exchange is started while connecting (the frame goes to a socket not connected yet), and for a client that only receives (a connection closed by the other side is kept)."
  },
  {
   "property": "C216",
   "status": "partial",
   "theorems": [
    "Ptusa.WinCm.C216_table_partial",
    "Ptusa.WinCm.C216_port_taken_violated",
    "Ptusa.WinCm.C216_recovers_partial"
   ],
   "note": "Proved when a socket that was made can be bound and listened on. Violated when the port was taken at first and the number of the closed socket is used again: the first client is accepted twice and the program hangs. When the number is not used again the server recovers in the second call."
  },
  {
   "property": "C217",
   "status": "partial",
   "theorems": [
    "Ptusa.RecText.C217_read_partial",
    "Ptusa.RecText.C217_stale_violated",
    "Ptusa.RecText.C217_long_violated",
    "Ptusa.RecText.C217_text_violated"
   ],
   "note": "Proved for texts without apostrophe, line feed and backslash, numerals without exponent and pieces of at most 1000 characters. Violated for longer pieces (the list of some fifty recipes): what the buffer held before shows in the text; by names with an apostrophe; by a negative not-a-number."
  },
  {
   "property": "C218",
   "status": "partial",
   "theorems": [
    "Ptusa.StReload.C218_reload_partial",
    "Ptusa.StReload.C218_lost_violated",
    "Ptusa.StReload.C218_kinds_violated",
    "Ptusa.StReload.C218_acid_violated"
   ],
   "note": "Proved for lines that wash an object the file knows, at a station with lines of one kind. Violated for a line whose recipe is chosen but which does not wash yet, and for objects the file does not know: nothing is recorded any more, and the start is not refused although acid is due; and at a station with both kinds of lines."
  },
  {
   "property": "C219",
   "status": "partial",
   "theorems": [
    "Ptusa.MsgText.C219_text_partial",
    "Ptusa.MsgText.C219_bounded",
    "Ptusa.MsgText.C219_cut_violated",
    "Ptusa.MsgText.C219_alarm_partial",
    "Ptusa.MsgText.C219_alarm_violated"
   ],
   "note": "Proved: no message is longer than its place; a sentence of at most 597 bytes is shown whole; while fewer than ten messages wait the alarm is told exactly. Violated: a longer sentence may be cut within a character; with ten messages waiting no alarm shows and `is_any_error` stays false."
  },
  {
   "property": "C220",
   "status": "partial",
   "theorems": [
    "Ptusa.LineDev.C220_named_partial",
    "Ptusa.LineDev.C220_own_partial",
    "Ptusa.LineDev.C220_twelfth_valve_violated",
    "Ptusa.LineDev.C220_number_violated",
    "Ptusa.LineDev.C220_common",
    "Ptusa.LineDev.C220_station"
   ],
   "note": "Proved for numbers of lines below 100000: the devices are those of the plan, no device is taken twice (names of different devices being different). The common devices for every number. Violated: in the old form a line without its twelfth valve gets no device at all; from line 1000000 on the names overflow their array."
  },
  {
   "property": "C221",
   "status": "partial",
   "theorems": [
    "Ptusa.PanCtl.C221_shown_partial",
    "Ptusa.PanCtl.C221_own_states",
    "Ptusa.PanCtl.C221_fault_violated",
    "Ptusa.PanCtl.C221_command_partial",
    "Ptusa.PanCtl.C221_lost_violated",
    "Ptusa.PanCtl.C221_command_violated"
   ],
   "note": "Proved: step, state, temperature and number for every block and every line that exists; all states which the program gives by itself are told apart; a line has the command that was written last. Violated: the fault numbers 50, 80 and 90 of a project are shown as something else; a command not yet looked at is lost when another comes."
  },
  {
   "property": "C222",
   "status": "partial",
   "theorems": [
    "Ptusa.CarWash.C222_counted_partial",
    "Ptusa.CarWash.C222_other_places_violated",
    "Ptusa.CarWash.C222_changed_violated"
   ],
   "note": "Proved while only the first place is washed and the server does not change its number during a wash. Violated: cars at the other places are never counted, and a wash of another place alone is counted for the number at the first; a number set by the server during a wash takes the count, or loses it."
  },
  {
   "property": "C223",
   "status": "partial",
   "theorems": [
    "Ptusa.PanText.C223_texts_partial",
    "Ptusa.PanText.C223_count",
    "Ptusa.PanText.C223_time",
    "Ptusa.PanText.C223_inside_violated",
    "Ptusa.PanText.C223_long_violated",
    "Ptusa.PanText.C223_zero_violated"
   ],
   "note": "Proved for texts of letters, ASCII characters and the number sign that leave room for the closing zero, from register 1000 on. Violated: registers of a block that begins inside a text keep what the buffer held; a text of 24 characters loses its closing zero to the next one; a block from register 0 on reads before the list of lines."
  },
  {
   "property": "C224",
   "status": "partial",
   "theorems": [
    "Ptusa.PanStat.C224_values_partial",
    "Ptusa.PanStat.C224_read",
    "Ptusa.PanStat.C224_coils",
    "Ptusa.PanStat.C224_last_violated",
    "Ptusa.PanStat.C224_half_violated"
   ],
   "note": "Proved except for the coil of the last parameter and for single registers. Violated: the coil of the last parameter cannot be written although it can be read; a single register written becomes the lower half of the parameter, even if it was the upper one."
  },
  {
   "property": "C225",
   "status": "partial",
   "theorems": [
    "Ptusa.Journal.C225_text",
    "Ptusa.Journal.C225_plain_partial",
    "Ptusa.Journal.C225_doubled",
    "Ptusa.Journal.C225_args_partial",
    "Ptusa.Journal.C225_percent_violated",
    "Ptusa.Journal.C225_command_violated",
    "Ptusa.Journal.C225_command_partial",
    "Ptusa.Journal.C225_long_violated",
    "Ptusa.Journal.C225_version",
    "Ptusa.Journal.C225_reload_partial",
    "Ptusa.Journal.C225_reload_violated",
    "Ptusa.Journal.C225_missing_violated",
    "Ptusa.Journal.C225_missing_reload_violated"
   ],
   "note": "Proved for texts given as such or as an argument, and for messages that fit. Violated: a command for recipes is used as a format when debug output is on, a percent sign in it is undefined; messages longer than the buffer; a missing file is reported by empty entries and an empty answer; a message about a version of six digits overflows the buffer of 100 bytes when the restrictions are loaded again."
  },
  {
   "property": "C226",
   "status": "partial",
   "theorems": [
    "Ptusa.RetPump.C226_dry_partial",
    "Ptusa.RetPump.C226_wanted",
    "Ptusa.RetPump.C226_hand_partial",
    "Ptusa.RetPump.C226_stop",
    "Ptusa.RetPump.C226_dry_violated",
    "Ptusa.RetPump.C226_hand_violated",
    "Ptusa.RetPump.C226_panel_partial",
    "Ptusa.RetPump.C226_panel_violated"
   ],
   "note": "Proved: no dry run without a command of the operator in the step, the pump otherwise as the step wants, commands given with liquid hold until the step ends, off after a stop and in a pause, the coils for motors not in error. Violated: a pump switched on by the operator runs dry for the rest of the step; a command to switch on given without liquid keeps the pump off for the rest of the step though the liquid comes back; a motor in error is shown as running; coils 0 and 1 read before the list of lines. One line has a sensor; a line without one is the case of a sensor always active."
  },
  {
   "property": "C227",
   "status": "partial",
   "theorems": [
    "Ptusa.StepOut.C227_step_partial",
    "Ptusa.StepOut.C227_state_partial",
    "Ptusa.StepOut.C227_message_partial",
    "Ptusa.StepOut.C227_state_violated",
    "Ptusa.StepOut.C227_zero_violated"
   ],
   "note": "Proved for devices listed by steps but not by the state as a whole, and for devices listed by the state only; signals and motors, no parallel steps, durations that do not change and no condition leading to a step of duration 0. Violated: a device listed by the state and by the step that ends is off for one pass at the change of steps; a step of duration 0 reached by a condition switches its devices on for a pass without having begun."
  },
  {
   "property": "C228",
   "status": "partial",
   "theorems": [
    "Ptusa.ParOut.C228_parallel_partial",
    "Ptusa.ParOut.C228_shared_violated",
    "Ptusa.ParOut.C228_refused_violated",
    "Ptusa.ParOut.C228_twice_violated"
   ],
   "note": "Proved for a step used in parallel only, that its check does not refuse, with devices no other step lists, without switching over. Violated: a device shared with the main step is off for a pass when the main step ends; a refused step drives its devices from the next pass on; after switching over to a step that is active already it is active twice, and switching it off does not last."
  },
  {
   "property": "C229",
   "status": "partial",
   "theorems": [
    "Ptusa.Resume.C229_goes_on_partial",
    "Ptusa.Resume.C229_none_violated",
    "Ptusa.Resume.C229_extra_violated",
    "Ptusa.Resume.C229_time_partial",
    "Ptusa.Resume.C229_stop_violated"
   ],
   "note": "Proved for the active step and the set of parallel steps and for the working time while the operation is started, runs or is paused; times are unbounded (the truncation to 32 bits is C45). Violated: an operation without an active step is in its first step after a pause; the times of parallel steps begin anew; a stop loses the working time since the last start or pause."
  },
  {
   "property": "C230",
   "status": "partial",
   "theorems": [
    "Ptusa.StepDur.C230_begins",
    "Ptusa.StepDur.C230_stays_partial",
    "Ptusa.StepDur.C230_leaves_partial",
    "Ptusa.StepDur.C230_parallel_violated",
    "Ptusa.StepDur.C230_zero_violated"
   ],
   "note": "Proved for a step that is not active in parallel too and that was not entered while its duration was 0, with no request for a step in the cycle in which the operation is started again; times are unbounded (the truncation to 32 bits is C45). Violated: switching off as a parallel step takes the time before a pause from the active step; a step entered with the duration 0 counts from its last beginning."
  },
  {
   "property": "C231",
   "status": "partial",
   "theorems": [
    "Ptusa.StepMax.C231_reports",
    "Ptusa.StepMax.C231_quiet_partial",
    "Ptusa.StepMax.C231_change_partial",
    "Ptusa.StepMax.C231_skipped_violated"
   ],
   "note": "Missing: parallel steps with an own maximal time (C44 shows what goes wrong for them), steps that are skipped."
  },
  {
   "property": "C232",
   "status": "partial",
   "theorems": [
    "Ptusa.Emul.C232_state_partial",
    "Ptusa.Emul.C232_inputs_partial",
    "Ptusa.Emul.C232_outputs_partial",
    "Ptusa.Emul.C232_on_partial",
    "Ptusa.Emul.C232_modules",
    "Ptusa.Emul.C232_terminal_ignored_violated",
    "Ptusa.Emul.C232_terminal_output_violated",
    "Ptusa.Emul.C232_name_violated",
    "Ptusa.Emul.C232_bottom_violated"
   ],
   "note": "Missing: terminals, bottom mix-proof valves (state), names of commands that begin with F but are not of a feedback; other devices (motors, analog devices). Shown false for these by the _violated theorems."
  },
  {
   "property": "C233",
   "status": "partial",
   "theorems": [
    "Ptusa.EmuDev.C233_state_partial",
    "Ptusa.EmuDev.C233_value_partial",
    "Ptusa.EmuDev.C233_outputs_partial",
    "Ptusa.EmuDev.C233_modules",
    "Ptusa.EmuDev.C233_inverter_violated",
    "Ptusa.EmuDev.C233_breaker_violated"
   ],
   "note": "The state is proved for all classes but circuit breakers (C233_state_partial), the value for all but breakers and Altivar motors (C233_value_partial), untouched outputs for all but breakers (C233_outputs_partial), outputs with modules for signals and motors (C233_modules). The code violates the rest: C233_inverter_violated (a simulated Altivar motor keeps showing the last frequency after it is switched off), C233_breaker_violated (a simulated breaker switched on shows the state 0, and its outputs are driven)."
  },
  {
   "property": "C234",
   "status": "proved",
   "theorems": [
    "Ptusa.VirtDev.C234_shown",
    "Ptusa.VirtDev.C234_active",
    "Ptusa.VirtDev.C234_stub"
   ],
   "note": "Virtual valves and virtual counters are not in this component (counters: C37)."
  },
  {
   "property": "C235",
   "status": "partial",
   "theorems": [
    "Ptusa.VirtValve.C235_state_partial",
    "Ptusa.VirtValve.C235_feedback_partial",
    "Ptusa.VirtValve.C235_feedback_violated"
   ],
   "note": "The state is proved in both modes (C235_state_partial), the feedbacks without modules (C235_feedback_partial). The code violates the rest: C235_feedback_violated (with modules a virtual valve is neither opened nor closed, whatever its state)."
  },
  {
   "property": "C236",
   "status": "partial",
   "theorems": [
    "Ptusa.EmuScale.C236_strain_partial",
    "Ptusa.EmuScale.C236_tared_partial",
    "Ptusa.EmuScale.C236_rs232_partial",
    "Ptusa.EmuScale.C236_eth_partial",
    "Ptusa.EmuScale.C236_eth_state_partial",
    "Ptusa.EmuScale.C236_tare_violated",
    "Ptusa.EmuScale.C236_state_violated",
    "Ptusa.EmuScale.C236_off_violated",
    "Ptusa.EmuScale.C236_negative_violated"
   ],
   "note": "Weight and taring are proved for strain gauges (C236_strain_partial, C236_tared_partial), the weight by RS232 as of the last cycle (C236_rs232_partial), weight (not below 0) and state on the network (C236_eth_partial, C236_eth_state_partial). The code violates the rest: C236_tare_violated, C236_state_violated, C236_off_violated, C236_negative_violated."
  },
  {
   "property": "C237",
   "status": "partial",
   "theorems": [
    "Ptusa.EmuPower.C237_channels_partial",
    "Ptusa.EmuPower.C237_state_partial",
    "Ptusa.EmuPower.C237_current_partial",
    "Ptusa.EmuPower.C237_on_violated",
    "Ptusa.EmuPower.C237_wrap_violated",
    "Ptusa.EmuPower.C237_undefined_violated"
   ],
   "note": "Proved for switching by 0 and 1 and currents 0 to 7 (C237_channels_partial, C237_state_partial, C237_current_partial). The code violates the rest: C237_on_violated (4 or 0.5 leaves the channel off), C237_wrap_violated, C237_undefined_violated."
  },
  {
   "property": "C238",
   "status": "partial",
   "theorems": [
    "Ptusa.EmuCam.C238_state",
    "Ptusa.EmuCam.C238_ready",
    "Ptusa.EmuCam.C238_result_partial",
    "Ptusa.EmuCam.C238_second_violated"
   ],
   "note": "State and readiness are proved in full, the first result if no other one is simulated (C238_result_partial). The second result cannot be simulated: C238_second_violated."
  },
  {
   "property": "C239",
   "status": "partial",
   "theorems": [
    "Ptusa.EmuTemp.C239_value_partial",
    "Ptusa.EmuTemp.C239_fault_partial",
    "Ptusa.EmuTemp.C239_state_partial",
    "Ptusa.EmuTemp.C239_fault_violated"
   ],
   "note": "Proved: temperature without a fault for all kinds, fault temperature for resistance thermometers, state as commanded (C239_value_partial, C239_fault_partial, C239_state_partial). The code violates the rest: C239_fault_violated (other kinds show -1000, no kind shows the state -1)."
  },
  {
   "property": "C240",
   "status": "partial",
   "theorems": [
    "Ptusa.EmuFlow.C240_pulse",
    "Ptusa.EmuFlow.C240_flow_partial",
    "Ptusa.EmuFlow.C240_temp_partial",
    "Ptusa.EmuFlow.C240_large_violated",
    "Ptusa.EmuFlow.C240_wrap_violated"
   ],
   "note": "Proved in full for pulse counters (C240_pulse); on IO-Link for flows within 327.68 and temperatures within 819.2 (C240_flow_partial, C240_temp_partial). The code violates the rest: C240_large_violated, C240_wrap_violated."
  }
 ]
}