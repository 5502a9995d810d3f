{"id": "C01", "title": "Non-volatile memory blocks never overlap", "statement": "Every block of non-volatile memory handed out by NV_memory_manager::get_memory_block lies entirely inside the area of its type (NVRAM or EEPROM), and no two blocks handed out during the life of the process share a byte; a request that does not fit gets an empty block and consumes nothing.", "quantifier": "every sequence of block requests (both memory types, every 32-bit size), in any order", "why_tests_cant": "Tests request one or two blocks of sane sizes; the claim is about every history of requests including sizes near 2^32 where the bump pointer arithmetic wraps.", "anchors": ["PAC/common/sys/base_mem.cpp: NV_memory_manager::get_memory_block, NV_memory_manager::NV_memory_manager", "PAC/common/sys/base_mem.h: memory_range, NV_memory_manager"]}
{"id": "C02", "title": "A memory block cannot be read or written past its end", "statement": "memory_range::read/write(buf,count,start_pos) either refuses (returns 0, touching nothing) or touches only bytes of that block; bytes of any other block keep their value. A write followed by a read of the same span returns the bytes written.", "quantifier": "every block, every 32-bit count and start position, every memory contents", "why_tests_cant": "The bounds check is 32-bit modular arithmetic; only a proof over all (count,start) pairs can show where it holds and where it wraps.", "anchors": ["PAC/common/sys/base_mem.cpp: memory_range::read, memory_range::write, memory_range::check_params"]}
{"id": "C03", "title": "Persistent parameter sets never overlap", "statement": "All saved parameter sets created by an application (device parameters, technological object parameters, system parameters) occupy pairwise disjoint byte ranges of the parameter area; changing or saving a parameter of one set never changes the in-memory or stored value of a parameter of another set.", "quantifier": "every sequence of parameter-set creations that fits in the parameter area and every later sequence of writes and saves", "why_tests_cant": "Overlap depends on the whole creation history of a project; tests create a couple of sets.", "anchors": ["PAC/common/param_ex.cpp: params_manager::get_params_data, params_manager::save", "PAC/common/param_ex.h: saved_params"]}
{"id": "C04", "title": "Saved parameters survive a restart", "statement": "If a parameter was saved with save(idx,value) (or the whole set with save_all) and not changed by a later save, then after a restart with the same layout reading that index yields the saved value; parameters changed only in memory come back with their last saved value.", "quantifier": "every layout, every history of in-memory writes and saves, restart after any prefix of the history", "why_tests_cant": "The crash/restart point is universally quantified; tests restart at a fixed point.", "anchors": ["PAC/common/param_ex.cpp: params_manager::init, params_manager::save", "PAC/common/param_ex.h: saved_params::save, saved_params::save_all"]}
{"id": "C05", "title": "Interrupted parameter re-initialisation is completed at the next start", "statement": "When the parameter layout has changed, the controller resets all parameters to defaults; if power is lost at any moment during this, the next start detects the incomplete initialisation and performs it again, so an application never runs with parameters that are neither defaults nor values saved under the current layout.", "quantifier": "every crash point between the writes to non-volatile memory made by final_init, every previous memory content", "why_tests_cant": "Crash points between two NV writes cannot be exercised by a unit test of the class.", "anchors": ["PAC/common/param_ex.cpp: params_manager::final_init, params_manager::reset_to_default, params_manager::reset_params_size"]}
{"id": "C06", "title": "Out-of-range parameter indices are harmless", "statement": "For a parameter set of n elements, reading index i in 1..n yields the value last written to i; writing any other index changes no valid element and no other set; reading any other index yields 0.", "quantifier": "every n, every 32-bit index, every sequence of reads and writes", "why_tests_cant": "Needs all indices and all histories of mixed valid/invalid accesses.", "anchors": ["PAC/common/param_ex.h: parameters::operator[], saved_params::save"]}
{"id": "C07", "title": "Elapsed-time measurement is exact and survives counter wrap-around", "statement": "get_delta_millisec(t) returns the number of milliseconds passed since get_millisec() returned t, also when the millisecond counter has wrapped around zero in between.", "quantifier": "every pair of counter values (start, now)", "why_tests_cant": "Wrap-around happens after weeks of uptime; a test cannot wait, and sampling misses the off-by-one window.", "anchors": ["PAC/linux/l_dtime.cpp: get_delta_millisec"]}
{"id": "C08", "title": "The critical-error list is a set", "statement": "After any history of set_global_error / reset_global_error calls the list of critical errors contains (class, subclass, parameter) exactly once if it was set after it was last reset, and not at all otherwise; is_any_error is true exactly when some error is in the list; repeating a set or a reset changes nothing.", "quantifier": "every finite history of set/reset calls with arbitrary classes, subclasses and parameters", "why_tests_cant": "Requires induction over histories; tests check a two-call history.", "anchors": ["PAC/common/PAC_err.cpp: set_global_error, reset_global_error", "PAC/common/PAC_err.h: is_any_error"]}
{"id": "C09", "title": "The critical-error change id moves exactly when the list changes", "statement": "The id reported with the critical-error list is incremented by exactly one by every call that changes the list and by no other call; hence two different ids prove that the list changed, and equal ids mean that the number of changes in between is a multiple of 65536.", "quantifier": "every history of set/reset calls", "why_tests_cant": "Clients rely on the id to skip re-reading; a missed change for one history is enough to hide an alarm, including after 65536 changes.", "anchors": ["PAC/common/PAC_err.cpp: set_global_error, reset_global_error, save_as_Lua_str"]}
{"id": "C10", "title": "Device alarm life-cycle", "statement": "The alarm of a device is raised in the first evaluation in which the device reports a negative state, stays visible (alarm, returned or accepted) until the device has recovered and the operator has accepted it, is 'accepted' only by an accept command given while it is active, and is never silently dropped: an alarm that recovers unaccepted remains in 'returned' state until accepted or raised again.", "quantifier": "every interleaving of device state changes, evaluations and operator commands", "why_tests_cant": "It is a statement over all interleavings of field signals and operator commands.", "anchors": ["common/PAC-driver/g_errors.cpp: tech_dev_error::evaluate, tech_dev_error::set_cmd"]}
{"id": "C11", "title": "The common alarm flags report every unsuppressed alarm", "statement": "After errors_manager::evaluate the 'there is an error' flag is true exactly when some device whose alarm is not suppressed reports an error, and the 'unacknowledged' flag exactly when some such alarm is unacknowledged, whatever the order in which devices were registered.", "quantifier": "every list of devices, every combination of states and suppression settings, every order", "why_tests_cant": "The flags are shared by all devices; the result depends on registration order, which tests fix.", "anchors": ["common/PAC-driver/g_errors.cpp: tech_dev_error::evaluate, errors_manager::evaluate, siren_lights_manager::eval"]}
{"id": "C12", "title": "The alarm-list change id moves when the visible alarm list changes", "statement": "Whenever an evaluation or an operator command changes what the alarm list shows (an alarm is raised, returns, is accepted or cleared, a message is added or removed), the id reported with the list changes.", "quantifier": "every history of evaluations, commands and message postings", "why_tests_cant": "Missed updates depend on specific interleavings (e.g. one message removed and another posted between two evaluations).", "anchors": ["common/PAC-driver/g_errors.cpp: errors_manager::evaluate, errors_manager::set_cmd, tech_obj_error::evaluate"]}
{"id": "C13", "title": "PID output stays within its limits", "statement": "While a PID regulator is on and not in manual mode, every value it outputs lies between its configured minimum and maximum output (and the percentage lies in 0..100), whatever the measured values, set points and times.", "quantifier": "every sequence of evaluations with arbitrary inputs, parameters and times", "why_tests_cant": "Control output safety must hold for every measured value and history, including degenerate parameters.", "anchors": ["PAC/common/PID.cpp: PID::eval, PID::init_param"]}
{"id": "C14", "title": "PID on/off protocol", "statement": "A regulator that is off outputs its rest value (0 or 100); switching off is completed on the next I/O evaluation and then the actuator is switched off exactly once; switching on during stopping resumes without losing the accumulated state, while switching on from off starts from a clean state.", "quantifier": "every sequence of on/off/evaluate calls", "why_tests_cant": "Protocol property over all call sequences.", "anchors": ["PAC/common/PID.cpp: PID::direct_on, PID::direct_off, PID::direct_set_state, PID::evaluate_io, PID::reset"]}
{"id": "C15", "title": "Operations move only along the documented state transitions", "statement": "An operation moves only between idle, starting, run, pausing, pause, unpausing, stopping, stop, completing along the documented transitions; a command that is not applicable in the current state has no effect.", "quantifier": "every sequence of start/pause/stop/switch-off/finalize commands and evaluations, every configuration of states with or without steps", "why_tests_cant": "All command sequences and all configurations of empty/non-empty transition states.", "anchors": ["PAC/common/operation_mngr.cpp: operation::start, pause, stop, switch_off, evaluate, finalize, to_run_state"]}
{"id": "C16", "title": "Only the current state of an operation drives devices", "statement": "At any moment at most one state of an operation has active steps, and it is the state reported by the operation; leaving a state finalises its steps.", "quantifier": "every sequence of commands and evaluations", "why_tests_cant": "Leaks show only for particular command orders (e.g. start during unpausing).", "anchors": ["PAC/common/operation_mngr.cpp: operation::start, operation::to_run_state, operation_state::init, operation_state::finalize"]}
{"id": "C17", "title": "get_mode agrees with the operation state", "statement": "After any history of mode commands get_mode(n) is 1 exactly when operation n is not idle, and is_idle() is true exactly when every operation is idle.", "quantifier": "every number of operations, every history of set_mode commands and evaluations", "why_tests_cant": "The bit mask and the state machines are updated by different code paths; they diverge only on particular histories.", "anchors": ["PAC/common/tech_def.cpp: tech_object::set_mode, get_mode, get_operation_state, is_idle"]}
{"id": "C18", "title": "Mutually restricted operations never run together", "statement": "While restriction checking is enabled (restrictions mode 0), an operation cannot be switched on while an operation that forbids it is on.", "quantifier": "every restriction table, every history of set_mode commands with any mode codes", "why_tests_cant": "Interlock must hold for all histories of commands; tests cover on/off only.", "anchors": ["PAC/common/tech_def.cpp: tech_object::set_mode, lua_check_on_mode"]}
{"id": "C19", "title": "A refused mode command changes nothing", "statement": "If set_mode returns a non-zero code because the operation number is out of range, the operation is already in the requested state, or a check refuses, then no operation changes state and no device is driven; the returned code identifies the reason.", "quantifier": "every operation number (32-bit), every requested mode code, every outcome of the user-supplied checks", "why_tests_cant": "All inputs and all outcomes of external checks.", "anchors": ["PAC/common/tech_def.cpp: tech_object::set_mode"]}
{"id": "C20", "title": "Operation bit mask addresses exactly one operation", "statement": "Switching operation n on or off changes get_mode of n only, for every number of operations (more than 32 included).", "quantifier": "every operations count, every pair of operation numbers", "why_tests_cant": "Bit-packing across 32-bit words must be right for every index.", "anchors": ["PAC/common/tech_def.cpp: tech_object::tech_object, set_mode, get_mode"]}
{"id": "C21", "title": "Numeric commands are decoded unambiguously", "statement": "The numeric command written to an object's CMD property is decoded to exactly one of: switch operation on, switch off, set operation to a given state, switch an extra step on/off, or reject; the operation, state and step numbers are recovered from the code used by the operator station.", "quantifier": "every operation number below 1000, every state and step number below 100, every other code", "why_tests_cant": "All 400000 codes; off-by-one in a range boundary would be missed by samples.", "anchors": ["PAC/common/tech_def.cpp: tech_object::set_cmd"]}
{"id": "C22", "title": "Operator messages are bounded and uniquely numbered", "statement": "A technological object never holds more than 10 pending messages; each message gets a number never used before (by any object); deleting by number removes exactly that message; excess messages are dropped without disturbing the others.", "quantifier": "every history of message postings and deletions over any number of objects", "why_tests_cant": "History property.", "anchors": ["PAC/common/tech_def.cpp: tech_object::set_err_msg", "common/PAC-driver/g_errors.cpp: tech_obj_error::set_cmd"]}
{"id": "C23", "title": "Availability shown to the operator matches the restrictions", "statement": "The availability of operation i published for the operator is 'not available' exactly when some active operation of the object forbids i (or a finished operation forbids it as a successor); availability counters never wrap below zero.", "quantifier": "every restriction table and every history of operations being switched on and off", "why_tests_cant": "Counters are incremented and decremented on different paths; the match is a history invariant.", "anchors": ["PAC/common/tech_def.cpp: lua_init_mode, check_availability, lua_final_mode, save_device"]}
{"id": "C24", "title": "Step switching keeps exactly the selected main step active", "statement": "Within an operation state, requesting a step in range makes it the only active main step; requesting a step out of range changes nothing; leaving the state leaves no active step.", "quantifier": "every number of steps, every sequence of step requests", "why_tests_cant": "All sequences of to_step/evaluate/finalize.", "anchors": ["PAC/common/operation_mngr.cpp: operation_state::to_step, to_next_step, finalize, init"]}
{"id": "C25", "title": "Extra (parallel) steps behave as a set", "statement": "Switching an extra step on makes it reported active, switching it off makes it reported inactive; the list of active extra steps has no duplicates; a request that is refused leaves the set unchanged; every active extra step is evaluated in each cycle.", "quantifier": "every sequence of extra-step requests", "why_tests_cant": "History property; also the order of removal while iterating.", "anchors": ["PAC/common/operation_mngr.cpp: on_extra_step, off_extra_step, switch_active_extra_step, operation_state::evaluate"]}
{"id": "C26", "title": "Conditional jump decides on the configured signals", "statement": "A step's conditional jump takes place exactly when, for some configured group in order, all its 'must be on' devices are on and all its 'must be off' devices are off, and leads to the step configured for that group.", "quantifier": "every list of groups, every device state", "why_tests_cant": "All configurations, including empty groups and missing targets.", "anchors": ["PAC/common/operation_mngr.cpp: jump_if_action::is_jump"]}
{"id": "C27", "title": "Input-to-output actions copy the control signal", "statement": "After evaluating a DI->DO action, each output is on exactly when the input of its group is active (inverted for the inverted action); AI->AO copies the analog value of the input to all outputs of the group; a device that is an output of several groups follows the last one; no other device is touched.", "quantifier": "every group configuration and every input state", "why_tests_cant": "All configurations.", "anchors": ["PAC/common/operation_mngr.cpp: DI_DO_action::evaluate, inverted_DI_DO_action::evaluate_DO, AI_AO_action::evaluate"]}
{"id": "C28", "title": "Recipe storage is a bounded table", "statement": "getRecPar returns the value last stored by setRecPar for that (recipe, parameter) pair; out-of-range pairs are ignored and read as 0; the storage is marked changed exactly when a value really changed.", "quantifier": "every table size, every index pair (32-bit), every history", "why_tests_cant": "All histories and all index pairs.", "anchors": ["PAC/common/params_recipe_manager.cpp: ParamsRecipeStorage::setRecPar, getRecPar"]}
{"id": "C29", "title": "Loading a recipe is all-or-nothing", "statement": "Loading a recipe into a technological object either copies every mapped parameter, persists them and records the recipe name and number, or leaves the object's parameters untouched.", "quantifier": "every list of mappings, recipe and object sizes", "why_tests_cant": "Depends on the position of an ill-fitting mapping in the list.", "anchors": ["PAC/common/params_recipe_manager.cpp: ParamsRecipeAdapter::loadParams"]}
{"id": "C30", "title": "Recipes survive save and reload", "statement": "Reading back the file written by serialize restores every recipe name and parameter when the table size is unchanged; when the file has a different size the common part is restored and the rest keeps its values; a power failure during a save leaves either the old or the new recipes readable.", "quantifier": "every table size, every recipe content, every crash point of the save", "why_tests_cant": "Round-trip over all contents, including names with unusual characters.", "anchors": ["PAC/common/params_recipe_manager.cpp: ParamsRecipeStorage::serialize, deserialize"]}
{"id": "C31", "title": "The published recipe list shows each enabled recipe once", "statement": "After any change of names or enabled flags and the following evaluation, the published recipe list (or lists of ten) contains each enabled recipe exactly once, in order, and no disabled recipe.", "quantifier": "every table size, every history of enabling/renaming and refreshing", "why_tests_cant": "Repeated refreshes matter; tests refresh once.", "anchors": ["PAC/common/params_recipe_manager.cpp: ParamsRecipeAdapter::refreshRecipeList"]}
{"id": "C32", "title": "Uptime is reported correctly", "statement": "The published days/hours/minutes/seconds always satisfy hours<24, minutes<60, seconds<60; together they are the uptime in whole seconds, which never runs ahead of the clock and lags it by at most one second and the time spent inside the evaluations, as long as evaluations are less than a day less a second apart.", "quantifier": "every sequence of evaluation times", "why_tests_cant": "Months of uptime.", "anchors": ["PAC/common/PAC_info.cpp: PAC_info::eval"]}
{"id": "C33", "title": "Semi-automatic restriction override always expires", "statement": "When restrictions are switched to the semi-automatic mode they become active again after the configured time, whatever happens in between, including a restart of the controller.", "quantifier": "every history of evaluations, parameter changes and restarts", "why_tests_cant": "Quantifies over restart points and over the millisecond counter value.", "anchors": ["PAC/common/PAC_info.cpp: PAC_info::eval, PAC_info::set_cmd"]}
{"id": "C34", "title": "Analog outputs never leave the module range", "statement": "For each supported 4-20 mA module the raw value written by set_AO is in the module's valid range for every requested value and scaling, reaches the ends exactly at the scaling limits, and moves monotonically from the raw value of the lower limit to that of the upper limit (falling if the scale is reversed).", "quantifier": "every requested value, every scaling range", "why_tests_cant": "All real-valued requests and scalings, including reversed or degenerate ones.", "anchors": ["PAC/common/bus_coupler_io.cpp: io_device::set_AO"]}
{"id": "C35", "title": "Analog read-back inverts analog output", "statement": "Reading back an analog output with the same scaling returns the requested value up to one raw unit; analog input scaling maps the raw range linearly onto the configured range and reports an error exactly for raw values outside the module's valid range.", "quantifier": "every raw value (16 bit), every scaling", "why_tests_cant": "All raw values and scalings.", "anchors": ["PAC/common/bus_coupler_io.cpp: io_device::get_AO, io_device::get_AI"]}
{"id": "C36", "title": "Signal column shows the most important event", "statement": "Within one control cycle the signal column shows the most important of the events posted, independently of the order in which the aggregates post them (error over message over batch not running and so on), and in manual mode program posts change nothing.", "quantifier": "every sequence of postings within a cycle", "why_tests_cant": "All orders of postings.", "anchors": ["PAC/common/device/base.cpp: signal_column::show_*, evaluate_io"]}
{"id": "C37", "title": "A virtual counter accumulates exactly the positive increments", "statement": "After any sequence of readings, the counter value equals the value it was last set or reset to plus the sum of all increases of the source reading; decreases (source resets) never reduce it; the absolute counter accumulates independently (modulo its 32-bit range); reset affects only the relative counter.", "quantifier": "every sequence of readings and resets", "why_tests_cant": "History sum; source counter resets.", "anchors": ["PAC/common/device/base.cpp: virtual_counter::eval, set, reset, abs_reset"]}
{"id": "C38", "title": "Manual mode isolates a device from the program", "statement": "While a device is in manual mode no program command (on, off, set state, set value, instant off) changes it, and operator commands still do; leaving manual mode restores program control.", "quantifier": "every interleaving of program and operator commands", "why_tests_cant": "All interleavings.", "anchors": ["PAC/common/device/base.cpp: device::off, device::set_cmd", "PAC/common/device/device.cpp: i_DO_device::on, instant_off, set_state, i_AO_device::set_value"]}
{"id": "C39", "title": "Seats are washed one group at a time, in turn", "statement": "While a step or operation washes valve seats, at most one group of valves has its seats open at any moment; the groups take turns, upper seats first, then lower seats, then again from the start; the waits and washings of one round fit into the configured period; when the action ends no seat stays open; no group index is ever out of range.", "quantifier": "every configuration of groups, every history of starts, evaluations at any times with any parameters, and ends", "why_tests_cant": "Tests step through one configuration with two groups; the claim is about every interleaving of time, parameters and restarts of the action.", "anchors": ["PAC/common/operation_mngr.cpp: open_seat_action::init, evaluate, finalize"]}
{"id": "C40", "title": "Delayed and listed switching", "statement": "A device of the delayed-on list is switched on once the delay of its group has passed and not before; a device of the delayed-off list is on until then and off afterwards; a device listed both as on and off is off, reverse wins over on, and a valve whose seat is being washed is not switched off by the off list.", "quantifier": "every list of groups, delay parameter, elapsed time and device state", "why_tests_cant": "Tests use one device and two instants.", "anchors": ["PAC/common/operation_mngr.cpp: delay_on_action::evaluate, delay_off_action::evaluate, on_action, on_reverse_action, off_action"]}
{"id": "C41", "title": "Washing by request follows the request and reports readiness", "statement": "The devices of a wash group are on (reversed devices run in reverse) exactly while the group has no request signals or one of them is active, and off otherwise; the ready signals of the group are on exactly when none of its devices, as commanded, is in error.", "quantifier": "every configuration of groups, every combination of request signals and device errors", "why_tests_cant": "The combinations of requests, errors and groups cannot be enumerated by tests.", "anchors": ["PAC/common/operation_mngr.cpp: wash_action::evaluate"]}
{"id": "C42", "title": "The description of devices in error stays inside its buffer", "statement": "Composing the description of the devices in error of a step never writes outside the buffer given by the caller, however many devices are in error and however long their names are.", "quantifier": "every distribution of devices in error over the groups of an action, every name length, every buffer size", "why_tests_cant": "Tests use one group; an overflow needs devices in error in several groups at once.", "anchors": ["PAC/common/operation_mngr.cpp: action::check_devices"]}
{"id": "C43", "title": "Finalising a step switches off everything it drove", "statement": "When a step is finalised every device that any of its actions may have switched on is commanded off, and no other device changes.", "quantifier": "every combination of actions and devices of a step, every state", "why_tests_cant": "Tests finalise single actions with one or two devices.", "anchors": ["PAC/common/operation_mngr.cpp: step::finalize, action::finalize, DI_DO_action::finalize, AI_AO_action::finalize, wash_action::finalize, open_seat_action::finalize"]}
{"id": "C44", "title": "Overdue steps are reported with their own number and time", "statement": "When the active step or an active extra step has run for its configured maximal time, the reported error names that step and its maximal time; otherwise nothing is reported.", "quantifier": "every number of steps, every set of active extra steps, every maximal and elapsed time", "why_tests_cant": "Tests check that some error is reported, not which step is named for every combination.", "anchors": ["PAC/common/operation_mngr.cpp: operation_state::check_max_step_time"]}
{"id": "C45", "title": "The running time of a step is exact at any uptime", "statement": "The time a step has been running, on which its duration, maximal time and the washing of seats depend, equals the time elapsed since it was started, however long the controller has been running.", "quantifier": "every start time and every elapsed time of the 64-bit millisecond clock", "why_tests_cant": "The defect shows only after 49.7 days of uptime.", "anchors": ["PAC/common/operation_mngr.cpp: step::init, step::get_eval_time, step::get_latest_eval_time", "PAC/common/operation_mngr.h: step::start_time", "PAC/linux/l_dtime.cpp: get_delta_millisec"]}
{"id": "C46", "title": "A recipe command of the server cannot crash the controller", "statement": "Every command text addressed to the recipe lists is either executed by the list it names or ignored; no command, whatever its numbers, ends the control program or reaches memory outside the lists.", "quantifier": "every number of lists, every command text that matches the command grammar", "why_tests_cant": "Tests send well-formed numbers only.", "anchors": ["PAC/common/params_recipe_manager.cpp: ParamsRecipeManager::parseDriverCmd", "common/PAC-driver/g_device.cpp: device_communicator service"]}
{"id": "C47", "title": "Valves close a fixed delay after the program asks", "statement": "A valve the control program has opened and then asks to close stays open for the configured delay and is closed by the first evaluation after it; opening it again cancels the request; an evaluation never closes a valve otherwise, and no valve depends on the others that wait.", "quantifier": "every set of valves, every history of commands of the program and the operator, inputs and evaluations at arbitrary times", "why_tests_cant": "All valves share one queue; tests switch one valve, while duplicates in the queue, cancellations and concurrent requests come in any order.", "anchors": ["PAC/common/device/valve.cpp: valve::on, valve::off, valve::evaluate, valve::is_switching_off_finished, valve_bottom_mix_proof::is_switching_off_finished"]}
{"id": "C48", "title": "A stuck valve is reported, and only a stuck one", "statement": "A valve with feedback reports a feedback error exactly when feedback is enabled, the inputs disagree with what the valve was told, and more than P_ON_TIME milliseconds have passed since it was told so (for valves with one input: since then or since the inputs were last seen to agree), even when the program keeps repeating the command. The shown feedback values are those of the position they name.", "quantifier": "every class of discrete valves and IO-Link mix-proof valves, every history of commands, inputs, cycles and queries at arbitrary times, every P_ON_TIME in [0, 2^24) ms", "why_tests_cant": "The error depends on when each command changed the outputs in an arbitrary history and on every interleaving of repeated commands with the inputs; tests check one command and one delay.", "anchors": ["PAC/common/device/valve.cpp: valve::get_state, get_fb_state, direct_on, direct_off and direct_set_state of valve_DO1_DI1_off, valve_DO1_DI1_on, valve_DO1_DI2, valve_DO2_DI2, valve_DO2_DI2_bistable, valve_mix_proof, valve_AS, valve_iolink_mix_proof"]}
{"id": "C49", "title": "A valve never has two contrary outputs on", "statement": "No history of commands leaves the opening and the closing output of a valve, both seats, or a seat and the main drive on at the same time, and the pulse of a bistable valve is taken away at the first cycle in which the position is reached or P_ON_TIME is over.", "quantifier": "every class of discrete valves and IO-Link mix-proof valves, every history of on, off, set state, inputs, cycles and queries", "why_tests_cant": "Contrary outputs damage the valve or mix product; that they never coincide is an invariant over all histories.", "anchors": ["PAC/common/device/valve.cpp: direct_on, direct_off, direct_set_state of all discrete valves, valve_DO2_DI2_bistable::evaluate, valve_iolink_mix_proof"]}
{"id": "C50", "title": "Valves that share bytes of an output image do not disturb each other", "statement": "Valves on an IO-Link terminal or an AS-i gateway share bytes of the output image. After any sequence of commands to any of them each valve's outputs are those of the last command to it, valves without a command keep theirs, and bits of no valve never change.", "quantifier": "every configuration with distinct outputs, every initial image, every sequence of commands to any valves", "why_tests_cant": "There are as many interleavings as commands and as many neighbours as bits; a mask wrong by one position disturbs only particular neighbours.", "anchors": ["PAC/common/device/valve.cpp: valve_iol_terminal::set_state_bit, reset_state_bit, check_config, direct_on, direct_off, valve_iol_terminal_mixproof_DO3, valve_AS::get_state_data, get_data_with_offset, direct_on, direct_off, direct_set_state"]}
{"id": "C51", "title": "A command to a valve is carried out and shown", "statement": "After on() a valve drives its opening output and is shown on, after off() it is shown off, and a state set by the operator or the program (off, on, upper seat, lower seat) is driven and shown, in every state.", "quantifier": "every class of discrete valves and IO-Link mix-proof valves, every history, every commanded state", "why_tests_cant": "Tests command a valve from its initial state; the claim is for every state a history can leave.", "anchors": ["PAC/common/device/valve.cpp: direct_on, direct_off, direct_set_state, get_valve_state of all discrete valves; PAC/common/device/base.cpp: device::set_cmd, device::direct_set_state"]}
{"id": "C52", "title": "A timer of the program measures the time it ran", "statement": "The working time of a timer is the number of milliseconds between its starts and pauses since its last reset, at every moment; the time is up exactly when it has run longer than the time set. The timers of a group are independent, and an index outside the group touches none of them.", "quantifier": "every history of start, pause, reset and set-time calls at arbitrary times, every time set, every index", "why_tests_cant": "The sum depends on an arbitrary history of starts and pauses; tests check one or two intervals of short length.", "anchors": ["PAC/common/device/device.cpp: timer::start, pause, reset, is_time_up, get_work_time, set_countdown_time, timer_manager::operator[]"]}
{"id": "C53", "title": "The time filter of digital inputs passes lasting changes only", "statement": "The state shown by a digital input with filter time P_DT changes only to a value that every reading of the last P_DT milliseconds has shown, and a value that lasts longer than P_DT is shown. With no filter time the input is shown at once. An IO-Link error shows the safe value and does not disturb the filter.", "quantifier": "every history of readings at arbitrary times, every P_DT", "why_tests_cant": "Flicker can have any pattern and any phase against the polling; tests try a few.", "anchors": ["PAC/common/device/device.cpp: DI1::get_state, level_s_iolink::get_state, level_s::level_s"]}
{"id": "C54", "title": "A command to a motor is carried out, never in both directions", "statement": "After any history a command to a motor sets the outputs of the commanded state: off, forward, reverse. Motors with separate outputs for the directions never have both on. Switching off clears the frequency. Nothing but a command changes the outputs, and once the feedback agrees the commanded state is shown.", "quantifier": "every sub type of motors with discrete channels, every history of commands, inputs, frequencies and queries", "why_tests_cant": "Both directions at once destroy the drive; that it never happens is an invariant over all histories.", "anchors": ["PAC/common/device/device.cpp: motor::direct_on, direct_off, direct_set_state, get_state, direct_set_value"]}
{"id": "C55", "title": "A motor that does not obey is reported, and only then", "statement": "A motor shows an error exactly when its feedback disagrees with its outputs (or its error input is on) and has not been seen to agree for more than P_ON_TIME since the outputs last changed; repeated commands do not put the error off.", "quantifier": "every sub type of motors with discrete channels, every history of commands, inputs and queries at arbitrary times, every P_ON_TIME in [0, 2^24) ms", "why_tests_cant": "As C48: an error depends on the last change in an arbitrary history.", "anchors": ["PAC/common/device/device.cpp: motor::get_state, direct_on, direct_off, direct_set_state"]}
{"id": "C56", "title": "The threshold regulator switches with hysteresis", "statement": "The regulator switches its actuator only when the measured value leaves the band of P_delta around the set point, in the direction of its action, so that between switching on and off the value has moved by more than twice P_delta; inside the band it keeps the state. Switched off, it keeps the actuator off. The value it shows is the state of the actuator.", "quantifier": "every history of on, off, state and set point calls with any measured values, every P_delta and action", "why_tests_cant": "Hysteresis is a statement about all histories of a real value; tests check a few values.", "anchors": ["PAC/common/device/device.cpp: threshold_regulator::direct_set_value, direct_on, direct_off, direct_set_state, get_value"]}
{"id": "C57", "title": "A pulse counter counts every pulse once", "statement": "The absolute value of a counter grows by the number of pulses the module has counted, whatever calls are made in between; the relative value by those that came while the counter was not paused, since its last reset; the values of the day by the same number, starting at 0 each day, with the value of the day before kept.", "quantifier": "every history of cycles, queries, pauses, starts and resets, every total of the module including wrap-around of its 16 bits", "why_tests_cant": "Errors appear only at wrap-around, at the first reading or after millions of pulses.", "anchors": ["PAC/common/device/device.cpp: base_counter::calculate_quantity, evaluate_io, pause, start, reset, abs_reset, pause_daily, start_daily, counter::get_raw_value"]}
{"id": "C58", "title": "A counter that stands still while liquid flows is reported", "statement": "A counter shows a counting error exactly when the pump has worked and the flow was above the minimum for the set time without any new pulse and without pause; a new pulse or a start command clears the error.", "quantifier": "every history of cycles, queries and commands at arbitrary times, every pump state, flow and set time", "why_tests_cant": "The supervision combines pump, flow, time and counter over an arbitrary history, and it must work at every uptime.", "anchors": ["PAC/common/device/device.cpp: base_counter::get_state, start, counter_f::get_state, get_pump_dt, get_min_flow"]}
{"id": "C59", "title": "Every request over TCP gets one reply that can be read", "statement": "A request for a registered service gets exactly one reply with the identifier and running number of the request, the length of the data and the data of the service; a request for a service or command that does not exist gets an error reply and runs no service.", "quantifier": "every request, every set of services, every answer of a service up to the size of the buffer, every way the network takes the bytes", "why_tests_cant": "Length fields and buffer offsets go wrong only for large answers; tests send a few short requests.", "anchors": ["PAC/linux/l_tcp_cmctr.cpp: tcp_communicator_linux::do_echo", "PAC/common/tcp_cmctr.cpp: tcp_communicator::_AknData, _AknOK, _ErrorAkn"]}
{"id": "C60", "title": "A reply depends on the request alone", "statement": "What is sent in reply to a request does not depend on earlier requests of any client, nor on how TCP cut or joined the bytes on the way.", "quantifier": "every earlier content of the buffer, every request, every segmentation", "why_tests_cant": "Segmentation depends on timing and network; a local test always sees whole requests.", "anchors": ["PAC/linux/l_tcp_cmctr.cpp: tcp_communicator_linux::do_echo, recvtimeout"]}
{"id": "C61", "title": "A reply goes out whole, or the connection is closed", "statement": "The bytes sent are always a beginning of the reply, in order and without repetition; the connection is kept only if all of them went out. Without failures they all go out.", "quantifier": "every sequence of results of select and send, every reply", "why_tests_cant": "Short writes and timeouts in the middle of a reply cannot be provoked reliably in a test.", "anchors": ["PAC/linux/l_tcp_cmctr.cpp: tcp_communicator_linux::sendall, do_echo"]}
{"id": "C62", "title": "No connection is lost or leaked", "statement": "Every descriptor accepted is either closed exactly once or still in the table of connections; the listening sockets stay in the table. In one cycle a client is served at most once, and every client that is ready is served.", "quantifier": "every sequence of calls of evaluate with any results of select, accept and exchanges, any number of clients", "why_tests_cant": "Leaks show after days of connects and failures in any order.", "anchors": ["PAC/linux/l_tcp_cmctr.cpp: tcp_communicator_linux::evaluate, do_echo"]}
{"id": "C63", "title": "Connecting is not timing dependent, opening the network leaves nothing behind", "statement": "A client that connects is not disconnected because it does not send at once. When opening the listening sockets succeeds both are open and in the table; when it fails, nothing is left open and the table is unchanged, so that it can be tried again any number of times.", "quantifier": "every client, every combination of results of the socket calls, any number of tries", "why_tests_cant": "Failures of bind on the second port and slow clients do not occur in tests.", "anchors": ["PAC/linux/l_tcp_cmctr.cpp: tcp_communicator_linux::net_init, evaluate, do_echo"]}
{"id": "C64", "title": "The loss of the server is reported", "statement": "The critical error \"no connection with the server\" is set after a call of evaluate exactly when for more than 5 s nothing was exchanged with the server.", "quantifier": "every history of calls of evaluate and of clients, at arbitrary times", "why_tests_cant": "Depends on the interleaving of clients over long times.", "anchors": ["PAC/linux/l_tcp_cmctr.cpp: tcp_communicator_linux::evaluate"]}
{"id": "C65", "title": "The reply tells whether a command was carried out", "statement": "A command text sent by the server is carried out exactly as sent, by the manager of recipes if it contains its mark and by the control program otherwise; the reply says success exactly when it was carried out without an error. A request the controller does not know gets an error reply.", "quantifier": "every text, every result of the control program, every state of the service and of the network", "why_tests_cant": "A wrong acknowledgement shows only when a command fails; tests send good commands.", "anchors": ["common/PAC-driver/g_device.cpp: device_communicator::write_devices_states_service"]}
{"id": "C66", "title": "The id of the list of devices tells a restart", "statement": "Once a client has set the id of the list of devices, every list of devices and of states carries it until the controller restarts; after a restart it is another one, so that the client asks for the list anew.", "quantifier": "every history of requests of any number of clients", "why_tests_cant": "Needs restarts and several clients in any order.", "anchors": ["common/PAC-driver/g_device.cpp: device_communicator::write_devices_states_service"]}
{"id": "C67", "title": "The id of the alarms tells a change", "statement": "Two alarm lists with the same id show the same errors, whatever happened between the two requests.", "quantifier": "every history of requests and of errors, of any length", "why_tests_cant": "The id is made of two ids, hidden alarms and a start delay; a lost change needs a particular interleaving.", "anchors": ["common/PAC-driver/g_device.cpp: device_communicator::write_devices_states_service"]}
{"id": "C68", "title": "Every list of devices is sent whole", "statement": "The list of devices and their states comes back whole, and no list makes the controller write outside its buffer, whatever the number of devices.", "quantifier": "every number of devices and length of their texts", "why_tests_cant": "Only large projects reach the limits.", "anchors": ["common/PAC-driver/g_device.cpp: device_communicator::write_devices_states_service"]}
{"id": "C69", "title": "Reading over Modbus gives the values of the program", "statement": "A Modbus client that reads coils or registers gets the values the project's functions gave for them, each in its place; registers and bits without a value are refused or zero.", "quantifier": "every program, state, address and number of elements, every content of the exchange buffer before, every splitting of the sending", "why_tests_cant": "The reply is built in the memory of the request, so what is not written keeps request bytes; tests look at the values they set.", "anchors": ["PAC/common/modbus_serv.cpp: ModbusServ::ModbusService", "PAC/common/modbus_serv.cpp: ForceBit, PackInt16, PackFloat, PackLong, PackTime, Utf8toUnicode", "PAC/linux/l_tcp_cmctr.cpp: tcp_communicator_linux::do_echo"]}
{"id": "C70", "title": "A Modbus reply tells whether the request was carried out", "statement": "A request that was not carried out - because the function of the project failed, does not exist, or the server does not know the Modbus function - is never answered by the reply of a request that was carried out.", "quantifier": "every program, state, message", "why_tests_cant": "Needs failing project functions and the byte layout of replies to failed requests.", "anchors": ["PAC/common/modbus_serv.cpp: ModbusServ::ModbusService", "PAC/linux/l_tcp_cmctr.cpp: tcp_communicator_linux::do_echo"]}
{"id": "C71", "title": "Values written over Modbus arrive unchanged", "statement": "The function of the project gets exactly the group, address and bytes (or coil value) of the message, packing and unpacking numbers loses nothing, and incomplete messages are refused.", "quantifier": "every message, every value of each type, every program", "why_tests_cant": "All byte values and all lengths matter.", "anchors": ["PAC/common/modbus_serv.cpp: ModbusServ::ModbusService", "PAC/common/modbus_serv.cpp: PackInt16, UnpackInt16, PackFloat, UnpackFloat, PackLong, UnpackLong"]}
{"id": "C72", "title": "Names survive the conversions between panels, files and the program", "statement": "A name typed at a panel is stored and shown again as it was typed, every text of the program is shown as it is, names are cut only between characters, names longer than allowed are refused, and no text makes the conversions touch memory outside their buffers.", "quantifier": "every text of the code page, every UTF-8 byte sequence, every length", "why_tests_cant": "The conversions go through three encodings and two tables; only certain characters and lengths fail.", "anchors": ["common/util/utf2cp1251.cpp: convert_utf8_to_windows1251, convert_windows1251_to_utf8, utf8_strlen", "PAC/common/modbus_serv.cpp: CP1251toUnicode, UnicodetoCP1251, Utf8toUnicode, UnicodetoUtf8", "PAC/common/cip_tech_def.cpp: cipline_tech_object::set_cmd"]}
{"id": "C73", "title": "A Modbus request uses only existing lines of a cleaning station", "statement": "Whatever object a request names, it uses a line of the station that exists, or none.", "quantifier": "every number of lines, group, kind of request and object number", "why_tests_cant": "The bounds differ from group to group; tests use valid numbers.", "anchors": ["PAC/common/modbus_serv.cpp: ModbusServ::ModbusService"]}
{"id": "C74", "title": "Inputs are those the couplers sent", "statement": "After reading, every digital and analog input is the one in the last complete answer of the coupler; without an answer or after a refusal the inputs keep their values; inputs of different answers are never mixed, and each register is requested exactly once per cycle.", "quantifier": "every number of channels and kind of module, every answer, every history of exchanges, every contents of the common buffer", "why_tests_cant": "The messages depend on the number of channels; faults need answers that are late, cut or refused.", "anchors": ["PAC/common/uni_bus_coupler_io.cpp: uni_io_manager::read_inputs", "PAC/common/uni_bus_coupler_io.cpp: uni_io_manager::e_communicate", "PAC/common/uni_bus_coupler_io.cpp: uni_io_manager::read_input_registers"]}
{"id": "C75", "title": "Outputs are written as asked", "statement": "Every message sent to a coupler sets exactly the outputs of this node to what was asked for, every output gets into a message, and outputs are recorded as set, and shown, only when the coupler confirmed.", "quantifier": "every number of channels and kind of module, every image of outputs, everything the network may do", "why_tests_cant": "The packing of bits and words depends on the modules and on limits at 123 registers, 255 outputs and the buffer size.", "anchors": ["PAC/common/uni_bus_coupler_io.cpp: uni_io_manager::write_outputs", "PAC/common/uni_bus_coupler_io.cpp: uni_io_manager::write_holding_registers", "PAC/common/bus_coupler_io.cpp: io_device::get_DO"]}
{"id": "C76", "title": "A lost coupler is reported", "statement": "A coupler that has not been heard for more than six seconds is in the list of critical errors after the next exchange, and no other is; a node that is switched off for service is listed as such and not as lost; commands use existing nodes only.", "quantifier": "every history of exchanges and of operator commands, all times", "why_tests_cant": "The report depends on the whole history of answers, commands and times.", "anchors": ["PAC/common/uni_bus_coupler_io.cpp: uni_io_manager::e_communicate", "PAC/common/PAC_info.cpp: PAC_info::set_cmd"]}
{"id": "C77", "title": "Connecting is retried less and less often", "statement": "A coupler that cannot be reached is connected again after a pause of half a second, which doubles with every failed attempt up to 64 seconds and starts again after a success; a coupler that does not answer does not slow down the others more often than this.", "quantifier": "every history of exchanges, every outcome of each attempt", "why_tests_cant": "The pauses depend on how all earlier attempts went.", "anchors": ["PAC/common/uni_bus_coupler_io.cpp: uni_io_manager::e_communicate", "PAC/common/uni_bus_coupler_io.cpp: uni_io_manager::net_init"]}
{"id": "C78", "title": "The state of IO-Link devices is that of their port", "statement": "An IO-Link device is shown as not connected or as faulty exactly when the status bits of its port say so.", "quantifier": "every status word and port", "why_tests_cant": "All 65536 words for all ports; tests use a few.", "anchors": ["PAC/common/bus_coupler_io.cpp: io_device::get_AI_IOLINK_state", "PAC/common/bus_coupler_io.cpp: io_device::get_AO_IOLINK_state"]}
{"id": "C79", "title": "Channels use the places they were given", "statement": "A channel uses exactly the place it was last given; channels that were given no existing place change nothing and are reported as errors; channels with different places do not influence one another.", "quantifier": "every sequence of settings, every number of nodes and channels", "why_tests_cant": "Wrong settings come from project files; tests use right ones.", "anchors": ["PAC/common/bus_coupler_io.cpp: io_device::IO_channels::init_channel", "PAC/common/bus_coupler_io.cpp: io_device::set_DO", "PAC/common/bus_coupler_io.cpp: io_device::get_DI", "PAC/common/bus_coupler_io.cpp: io_manager::get_AI_read_data", "PAC/common/bus_coupler_io.cpp: io_manager::get_AO_write_data"]}
{"id": "C80", "title": "A device is found by its type and name", "statement": "A device that the project has registered is found by its name and by its type and name; a name that was not registered gives the stand-in device that does nothing, and a message.", "quantifier": "every list of registered devices, every name and type asked for", "why_tests_cant": "The search depends on the order of the registration and on all names together; projects have hundreds of devices.", "anchors": ["PAC/common/device/manager.cpp: device_manager::get_device_n", "PAC/common/device/manager.cpp: device_manager::get_device", "PAC/common/device/manager.cpp: device_manager::add_io_device"]}
{"id": "C81", "title": "Devices know their number, name, type and subtype", "statement": "After registration every device tells the number of its place, the name and article it was registered with and the type and subtype of the project.", "quantifier": "every list of registrations", "why_tests_cant": "The factory has about a hundred cases; tests register some of them.", "anchors": ["PAC/common/device/manager.cpp: device_manager::add_io_device", "PAC/common/device/base.h: device"]}
{"id": "C82", "title": "A function of the program gives an object with the functions of its kind", "statement": "The access functions for valves, motors, sensors, … of the program give, for every name, an object of the kind that they promise.", "quantifier": "every list of registrations and every name asked for, each of the access functions", "why_tests_cant": "The casts are not checked at run time; a wrong one shows only with the rare kinds of devices and with unknown names.", "anchors": ["PAC/common/device/manager.cpp: V", "PAC/common/device/manager.cpp: M", "PAC/common/device/manager.cpp: LT", "PAC/common/device/manager.cpp: WT", "PAC/common/device/manager.cpp: HLA", "PAC/common/device/manager.cpp: CAM", "PAC/common/device/manager.cpp: get_counter"]}
{"id": "C83", "title": "A parameter of a device is set by its name", "statement": "A command of the server to a parameter of a device changes exactly the parameter of this name and saves it; assignments of the program last until the restart; a name that the device has not is refused and changes nothing.", "quantifier": "every class of devices, every history of commands and assignments, every name", "why_tests_cant": "Each class names its parameters in its constructors; what matters is that no name is missing or used twice in any of them.", "anchors": ["PAC/common/device/base.cpp: par_device::set_par_by_name", "PAC/common/device/base.cpp: par_device::set_par_name", "PAC/common/device/base.cpp: par_device::set_par", "PAC/common/device/device.cpp: constructors"]}
{"id": "C84", "title": "Washing recipes keep the values that are set", "statement": "Every value of every recipe of a washing line is the one that was set last for it; setting, copying, pasting, clearing, resetting to defaults, renaming and going about change nothing else, whatever order they come in.", "quantifier": "every history of commands, orders, restarts and cyclic calls, every recipe, value and number", "why_tests_cant": "All recipes lie in one block of bytes with computed addresses; a wrong one shows only in another recipe than the one tested.", "anchors": ["PAC/common/mcaRec.cpp: TRecipeManager::setRecipeValue", "PAC/common/mcaRec.cpp: TRecipeManager::getRecipeValue", "PAC/common/mcaRec.cpp: TRecipeManager::ResetRecipeToDefaults", "PAC/common/mcaRec.cpp: TRecipeManager::CopyRecipe", "PAC/common/mcaRec.cpp: TRecipeManager::PasteRecipe", "PAC/common/mcaRec.cpp: TRecipeManager::NullifyRecipe", "PAC/common/cip_tech_def.cpp: cipline_tech_object::set_cmd"]}
{"id": "C85", "title": "Washing recipes keep their names", "statement": "The name given to a recipe is shown again whenever the recipe is chosen again, and the list of recipes has exactly those in use with their names; no recipe takes the name of another.", "quantifier": "every history of names, changes of the recipe, orders, restarts and cyclic calls, every text", "why_tests_cant": "The name is held in two places and two encodings; what is lost depends on the order of renaming, copying and the clock.", "anchors": ["PAC/common/mcaRec.cpp: TRecipeManager::SaveRecipeName", "PAC/common/mcaRec.cpp: TRecipeManager::LoadRecipeName", "PAC/common/mcaRec.cpp: TRecipeManager::FormRecipeList", "PAC/common/mcaRec.cpp: TRecipeManager::setCurrentRecipe", "PAC/common/mcaRec.cpp: TRecipeManager::ToRecipe", "PAC/common/mcaRec.cpp: TMediumRecipeManager::LoadRecipeName", "PAC/common/cip_tech_def.cpp: cipline_tech_object::set_cmd"]}
{"id": "C86", "title": "Washing recipes are saved", "statement": "What was changed in the recipes is on the disk half a minute later and is there again after a power failure; after a regular end of the program nothing is lost.", "quantifier": "every history of changes and cyclic calls, every moment of the power failure, every outcome of the write", "why_tests_cant": "The loss appears only after a power failure at the wrong moment.", "anchors": ["PAC/common/mcaRec.cpp: TRecipeManager::EvalRecipe", "PAC/common/mcaRec.cpp: TRecipeManager::SaveToFile", "PAC/common/mcaRec.cpp: TRecipeManager::LoadFromFile", "PAC/common/mcaRec.cpp: TRecipeManager::~TRecipeManager"]}
{"id": "C87", "title": "Washing lines do not use each other's valves", "statement": "Two lines that wash never have recipes that need the same valve, one of them opening it; the start of such a wash is refused without moving a valve; while a line washes, the valves its recipe opens are open and those it closes are closed, and when the wash is over the valves it opened are closed.", "quantifier": "every number of lines, every recipe, every history of commands, cycles, choices and edits, every way devices and sensors behave", "why_tests_cant": "A conflict needs two lines, their recipes and an order of commands; a valve closed by the other line lets caustic into a product line.", "anchors": ["PAC/common/cip_tech_def.cpp: cipline_tech_object::getValvesConflict", "PAC/common/cip_tech_def.cpp: cipline_tech_object::EvalCommands", "PAC/common/cip_tech_def.cpp: cipline_tech_object::closeLineValves", "PAC/common/cip_tech_def.cpp: cipline_tech_object::ResetWP", "PAC/common/mcaRec.cpp: TRecipeManager::OnRecipeDevices", "PAC/common/mcaRec.cpp: TRecipeManager::OffRecipeDevices"]}
{"id": "C88", "title": "Stopping a washing line switches its devices off", "statement": "A line that is paused, locked, in error or idle has its pumps, its valves and its dosing pumps off (after errors of the washed object the valves of the way back may stay open); PAUSE, LOCK and RESET bring it there in the next cycle, in every step, and it stays there until it is ordered to go on.", "quantifier": "every history of commands of all lines, every step, every way devices and sensors behave", "why_tests_cant": "The state, the lock and the step are changed by different functions; what is forgotten shows only for one order of commands in one step.", "anchors": ["PAC/common/cip_tech_def.cpp: cipline_tech_object::_Stop", "PAC/common/cip_tech_def.cpp: cipline_tech_object::_StopDev", "PAC/common/cip_tech_def.cpp: cipline_tech_object::EvalBlock", "PAC/common/cip_tech_def.cpp: cipline_tech_object::EvalCommands", "PAC/common/cip_tech_def.cpp: cipline_tech_object::_InitStep", "PAC/common/cip_tech_def.cpp: cipline_tech_object::EvalCipInError"]}
{"id": "C89", "title": "A wash goes through the steps of its program in their order", "statement": "From its start to its end a line goes through exactly the steps of the parts of its program, in the fixed order of the parts, whatever pauses, errors, locks and skipped steps come in between, and the wash is over only when all of them were done; it is never in a step that the program does not know.", "quantifier": "every program, every history of commands of all lines, every result of the steps", "why_tests_cant": "The order is spread over a switch of two hundred lines and a loop over bits; a missing rinse after acid is found only with the program that has it.", "anchors": ["PAC/common/cip_tech_def.cpp: cipline_tech_object::_GoToStep", "PAC/common/cip_tech_def.cpp: cipline_tech_object::_LoadProgram", "PAC/common/cip_tech_def.cpp: cipline_tech_object::_InitStep", "PAC/common/cip_tech_def.cpp: cipline_tech_object::_DoStep", "PAC/common/cip_tech_def.cpp: getNexpPrg"]}
{"id": "C90", "title": "Self-cleaning of the station excludes all washes", "statement": "While one line cleans the tanks of the station, all other lines are at rest and cannot be started; when it is over they can.", "quantifier": "every number of lines, every history of commands, programs and cycles", "why_tests_cant": "The claim of a line is one number changed by starts and ends of all lines; it goes wrong only for orders of refused starts, locks and resets.", "anchors": ["PAC/common/cip_tech_def.cpp: cipline_tech_object::EvalCommands", "PAC/common/cip_tech_def.cpp: cipline_tech_object::ResetWP", "PAC/common/cip_tech_def.cpp: cipline_tech_object::scline"]}
{"id": "C91", "title": "An acid wash that is due cannot be avoided", "statement": "When an acid wash is due for an object, a program with caustic and without acid is not started, and no line comes to a caustic step unless its program has acid too.", "quantifier": "every history of commands, programs and cycles, every way the object and the sensors behave", "why_tests_cant": "The refusal is one of several states below zero; other commands leave it in ways the check does not see.", "anchors": ["PAC/common/cip_tech_def.cpp: cipline_tech_object::EvalCommands", "PAC/common/cip_tech_def.cpp: cipline_tech_object::_LoadProgram"]}
{"id": "C92", "title": "Faults stop a wash in time and only then", "statement": "While a line washes, a fault of the return pump, of the washed object, of the tanks or of a sensor stops the wash in the same cycle, a fault of the pump after 1.5 seconds, contradicting levels of the small tank after 5 seconds and a pump without flow after the time set, unless that error is blocked; the wash is not stopped by an error that is not there or has not lasted that long.", "quantifier": "every value of every device and parameter, every history of checks, pauses and steps, every clock", "why_tests_cant": "The delays are kept in fields that are updated by some paths of the check only; an early or missing stop needs a history with a pause or another error at the right moment.", "anchors": ["PAC/common/cip_tech_def.cpp: cipline_tech_object::_CheckErr", "PAC/common/cip_tech_def.cpp: cipline_tech_object::ResetErr", "PAC/common/cip_tech_def.cpp: cipline_tech_object::_InitStep", "PAC/common/cip_tech_def.cpp: cipline_tech_object::_DoStep"]}
{"id": "C93", "title": "Modbus requests are well formed", "statement": "Every request the Modbus protocol allows - reading coils, inputs and registers, writing a coil, coils, registers, a mask, and reading and writing at once - goes out as the protocol defines it: the head, the length, the station, the function, the address, the quantity and exactly the bytes to write.", "quantifier": "every request allowed by the protocol, every station, every content of the buffer", "why_tests_cant": "Each function builds its own frame byte by byte with counts cut to 8 bits; the faulty quantities are inside the allowed range and only a device sees the frame.", "anchors": ["PAC/common/modbus_client.cpp: modbus_client::read_holding_registers", "PAC/common/modbus_client.cpp: modbus_client::force_multiply_coils", "PAC/common/modbus_client.cpp: modbus_client::write_multiply_registers", "PAC/common/modbus_client.cpp: modbus_client::async_read_write_multiply_registers"]}
{"id": "C94", "title": "Values read and written over Modbus arrive", "statement": "A read returns 1 exactly when the device has answered it, and then the getters give the values of the device; without an answer or after a refusal it returns 0.  A write carries the registers as they were set since the last write, and 0 for the others.", "quantifier": "every request allowed by the protocol, every answer, every history of setters and calls, every register number", "why_tests_cant": "Requests, answers and the values to write share one buffer of 256 bytes; that a call in between spoils them depends on the history and on the length of the answer.", "anchors": ["PAC/common/modbus_client.cpp: modbus_client::set_int2", "PAC/common/modbus_client.cpp: modbus_client::get_int2", "PAC/common/modbus_client.cpp: modbus_client::set_int4", "PAC/common/modbus_client.cpp: modbus_client::get_int4", "PAC/common/modbus_client.cpp: modbus_client::get_bit", "PAC/common/modbus_client.cpp: modbus_client::zero_output_buff", "PAC/linux/l_tcp_client.cpp: linux_tcp_client::Communicate"]}
{"id": "C95", "title": "Bits written over Modbus arrive", "statement": "A write of coils carries each coil as it was last set; a mask changes exactly the bits of the register that were asked for, to the values asked for last; no bit number makes the controller write outside its buffer.", "quantifier": "every history of set_bit and mask_set_bit calls, every bit number, every value of the register", "why_tests_cant": "The bit numbers come from the project's program, and the masks are the result of all calls since the reset.", "anchors": ["PAC/common/modbus_client.cpp: modbus_client::set_bit", "PAC/common/modbus_client.cpp: modbus_client::mask_set_bit", "PAC/common/modbus_client.cpp: modbus_client::mask_reset", "PAC/common/modbus_client.cpp: modbus_client::async_mask_write_register", "PAC/common/modbus_client.cpp: modbus_client::reverse"]}
{"id": "C96", "title": "Modbus calls that do not wait report their own answer", "statement": "A call that does not wait returns 1 exactly once for each request that went out and was answered, no second request goes out before the answer or the loss of the connection, every frame is the request asked for, and after a failure the request is sent again.", "quantifier": "every history of calls, answers, wrong answers, lost connections and attempts to connect, every request", "why_tests_cant": "The result depends on fields shared by all functions and on when the network answers between two calls.", "anchors": ["PAC/common/modbus_client.cpp: modbus_client::async_read_holding_registers", "PAC/common/modbus_client.cpp: modbus_client::async_write_multiply_registers", "PAC/common/modbus_client.cpp: modbus_client::async_read_write_multiply_registers", "PAC/linux/l_tcp_client.cpp: linux_tcp_client::AsyncSend", "PAC/common/tcp_client.cpp: tcp_client::checkConnection"]}
{"id": "C97", "title": "An Altivar drive gets what was commanded", "statement": "Every command that goes out to a frequency converter carries the command word and the speed as they were commanded after the last answered exchange, at the latest the second exchange carries a new command; an ATV320 gets no command before its whole configuration was written and acknowledged; every frame is a command or the next write of the configuration; a disabled drive gets nothing.", "quantifier": "every history of passes, commands, speeds, answers, refusals and lost connections, every time, both types of drive", "why_tests_cant": "The frame is put together in one pass, sent in a later one and repeated until it is answered; what is in it depends on when the network fails.", "anchors": ["PAC/IoT/iot_altivar.cpp: altivar_node::Evaluate", "PAC/IoT/iot_altivar.cpp: altivar_node::set_output_in_percent", "PAC/IoT/iot_altivar.cpp: altivar_node::Enable", "PAC/IoT/iot_altivar.cpp: altivar_node::Disable", "PAC/common/device/device.cpp: motor_altivar::direct_set_state", "PAC/common/device/device.cpp: motor_altivar::direct_off"]}
{"id": "C98", "title": "The state shown of an Altivar drive is the drive's", "statement": "The state, speed, frequency, current and highest frequency shown are those of the last answered exchange; without a connection for more than 5 s the state is the alarm -100; the speed reads back as it was commanded.", "quantifier": "every history of passes, commands, answers and lost connections with a clock that does not go back", "why_tests_cant": "It depends on the order of answers and outages over time, and on values only a drive sends.", "anchors": ["PAC/IoT/iot_altivar.cpp: altivar_node::Evaluate", "PAC/IoT/iot_altivar.cpp: altivar_node::get_output_in_percent", "PAC/common/device/device.cpp: motor_altivar::get_state"]}
{"id": "C99", "title": "Wash statistics survive restarts", "statement": "What the station shows of every washed object (last wash, program, last acid wash, caustic washes) is what the washes made it; a restart shows it as it was last written, whatever the names contain; a loss of power while the file is written keeps every object written so far and does no harm.", "quantifier": "every history of selections, washes, ends, resets, cycles, reloads, restarts and losses of power at any byte of the file, every content of uninitialised memory", "why_tests_cant": "The number of objects, their texts and the byte at which the power fails are unbounded, and the outcome depends on memory that was never written.", "anchors": ["PAC/common/cip_stats.cpp: cip_stats::serialize", "PAC/common/cip_stats.cpp: cip_stats::deserialize", "PAC/common/cip_stats.cpp: cip_stats::loadFromFile", "PAC/common/cip_stats.cpp: cip_stats::saveToFile", "PAC/common/cip_stats.cpp: cip_stats::evaluate", "PAC/common/cip_stats.cpp: cip_object_stats::deserialize", "PAC/common/cip_tech_def.cpp: cipline_tech_object::evaluate", "PAC/common/cip_tech_def.cpp: cipline_tech_object::EvalRecipes"]}
{"id": "C100", "title": "An acid wash is demanded after too many caustic ones", "statement": "The counter of an object is the number of circulations of caustic since its last circulation of acid, whatever is washed on other lines, and a caustic wash without acid is refused exactly when the counter is above the allowed number; restarts do not make it forget.", "quantifier": "every history of selections, circulations and ends of washes on any lines, every number allowed, every program", "why_tests_cant": "The counter is shared by lines, lives over weeks of washes and restarts, and is written only at some ends of washes.", "anchors": ["PAC/common/cip_tech_def.cpp: cipline_tech_object::EvalCommands", "PAC/common/cip_tech_def.cpp: cipline_tech_object::Circ", "PAC/common/cip_tech_def.cpp: cipline_tech_object::EvalRecipes", "PAC/common/cip_stats.cpp: cip_stats::get_obj_stats", "PAC/common/cip_stats.cpp: cip_stats::apply"]}
{"id": "C101", "title": "Lamps and siren tell what is wrong", "statement": "While the lamps are in service (5 s after the start, no manual mode) the siren starts with every new alarm and every new critical error and goes on until there is no critical error and no unaccepted alarm; it does not start without a cause.  The red lamp blinks (or is lit) exactly while there is an error, the yellow one while there is a message; neither sticks in one look.  The green lamp is lit while some technological object is important.", "quantifier": "every history of control cycles, device errors, messages, critical errors, operator commands and manual modes, any clock readings that do not go back, any number of devices and objects", "why_tests_cant": "The lamps depend on flags recomputed by all devices in each cycle, on counters and on static variables that survive from cycle to cycle; tests look at a few cycles with a single device.", "anchors": ["common/PAC-driver/g_errors.cpp: siren_lights_manager::eval", "common/PAC-driver/g_errors.cpp: siren_lights_manager::set_cmd", "PAC/common/tech_def.cpp: tech_object::is_any_important_mode", "PAC/common/tech_def.h: tech_object_manager::is_any_important_mode", "common/PAC-driver/g_errors.cpp: errors_manager::evaluate"]}
{"id": "C102", "title": "A call of the script returns its answer and leaves the interpreter as it was", "statement": "A call of a function of the user's Lua script hands over the object and the parameters in their order and returns the script's answer as a whole number; without an answer it returns the fixed number of its kind (-1, 1, or 0 for an undefined check).  A mistake in the script never ends the program, and the stack of the interpreter is the same after the call as before.", "quantifier": "every history of calls of every kind, with any script state at every call: any globals, fields, answers and error objects", "why_tests_cant": "The stack grows by one to three values per failing call, so a program fails after days of cycles, not in a test; which error objects and objects of wrong type occur depends on the script of the plant.", "anchors": ["common/lua_manager.cpp: lua_manager::exec_lua_method_var", "common/lua_manager.cpp: lua_manager::int_exec_lua_method", "common/lua_manager.cpp: lua_manager::int_2_exec_lua_method", "common/lua_manager.cpp: lua_manager::int_no_param_exec_lua_method", "common/lua_manager.cpp: lua_manager::void_exec_lua_method", "common/lua_manager.cpp: lua_manager::error_trace", "PAC/common/tech_def.cpp: tech_object::lua_check_function"]}
{"id": "C103", "title": "Script errors reach the log without flooding it", "statement": "Every error the script raises is written to the log; the same error is written only once, whatever the number of cycles in which it is raised; nothing else is written by the handler, and the handler's memory is bounded.", "quantifier": "every history of calls with any script state at every call", "why_tests_cant": "The handler keeps a sorted vector with binary search and drops half of it when full; tests raise one or two errors.", "anchors": ["common/lua_manager.cpp: lua_manager::error_trace"]}
{"id": "C104", "title": "A digital sensor shows what it measured", "statement": "The pressure, level, conductivity, flow and temperature shown for an IO-Link sensor are the number the sensor sent, in the scale of its article; its status likewise; with a broken link the configured value and a negative state are shown instead.", "quantifier": "every history of answers of the coupler and evaluations, every content of the process image, every known article", "why_tests_cant": "Tests evaluate each article once with a few numbers; whether the image is evaluated again before the next answer depends on the coupler's timing, and the sign of char on the processor.", "anchors": ["PAC/common/device/device.cpp: pressure_e_iolink::evaluate_io", "PAC/common/device/device.cpp: pressure_e_iolink::get_value", "PAC/common/device/device.cpp: pressure_e_iolink::get_state", "PAC/common/device/device.cpp: level_e_iolink::get_value", "PAC/common/device/device.cpp: level_s_iolink::evaluate_io", "PAC/common/device/device.cpp: concentration_e_iolink::evaluate_io", "PAC/common/device/device.cpp: counter_iolink::evaluate_io", "PAC/common/device/device.cpp: temperature_e_iolink::get_value"]}
{"id": "C105", "title": "A strain gauge scale shows the weight it measured", "statement": "The weight shown is the number of thousandths the module sent times the coefficient plus the correction; the state is the fault the module sent.  After a tare the weight shown is the difference to the weight at the tare, until the next tare or its reset.", "quantifier": "every history of answers of the coupler, evaluations and commands", "why_tests_cant": "The words of the image are exchanged in place, so the result depends on the number of evaluations since the last answer; a fault during a tare is rare.", "anchors": ["PAC/common/device/device.cpp: wages_pxc_axl::evaluate_io", "PAC/common/device/device.cpp: wages_pxc_axl::tare", "PAC/common/device/device.cpp: wages_pxc_axl::reset_tare", "PAC/common/device/device.cpp: wages_pxc_axl::get_value", "PAC/common/device/device.cpp: wages_pxc_axl::direct_set_state"]}
{"id": "C106", "title": "A scale that sends a text shows the number in the text", "statement": "For a scale on a serial or network line the weight shown is the decimal number in the message plus the correction, in good state; a bad message gives a bad state; a scale that is silent does not stay in good order.", "quantifier": "every decimal number that fits into the message, every history before it, every content of the image behind the module, every split of messages", "why_tests_cant": "Tests use fixed messages in fresh buffers; leftovers of older messages and neighbouring modules are not in the tests.", "anchors": ["PAC/common/device/device.cpp: wages_RS232::get_value_from_wages", "PAC/common/device/device.cpp: wages_RS232::evaluate_io", "PAC/common/device/device.cpp: wages_RS232::get_value", "PAC/common/device/device.cpp: wages_eth::evaluate_io", "PAC/IoT/iot_wages_eth.cpp: iot_wages_eth::evaluate"]}
{"id": "C107", "title": "The filter of an analog scale hides at most the configured difference", "statement": "Each reading taken more than half a second after the last measurement differs from the weight measured at that moment by at most the configured filter; between measurements the reading does not change; a missing coefficient or reference voltage is shown as an error.", "quantifier": "every history of readings with any times and voltages, every filter of zero or more", "why_tests_cant": "The filter keeps its own weight and rounds it up, so an error could build up over a long history.", "anchors": ["PAC/common/device/device.cpp: wages::get_weight", "PAC/common/device/device.cpp: wages::get_value"]}
{"id": "C108", "title": "The volume of a tank follows its level", "statement": "The volume shown for a tank is that of the cone and cylinder of its configuration, to 5 kg, and never becomes smaller when the level rises, also at the edge of the cone.", "quantifier": "every radius, height of the cone, pressure and offset", "why_tests_cant": "Tests check a few points; continuity and monotonicity hold between all pairs of levels.", "anchors": ["PAC/common/device/device.cpp: level::get_volume", "PAC/common/device/device.cpp: level_e_cyl::calc_volume", "PAC/common/device/device.cpp: level_e_cone::calc_volume", "PAC/common/device/device.cpp: level_e_iolink::calc_volume"]}
{"id": "C109", "title": "A camera follows its commands and shows whether it is ready", "statement": "The output of a camera is the last command given to it; a camera that is not ready for the configured time shows a fault; readiness and both results are those of the inputs.", "quantifier": "every history of cycles with any times and inputs, and of commands", "why_tests_cant": "Tests step through a few cycles with a fixed clock; that the output is forced, and the clock of 32 bits after 50 days, show only in long histories.", "anchors": ["PAC/common/device/device.cpp: camera::direct_set_state", "PAC/common/device/device.cpp: camera::direct_on", "PAC/common/device/device.cpp: camera::direct_off", "PAC/common/device/device.cpp: camera_DI2::evaluate_io", "PAC/common/device/device.cpp: camera_DI3::evaluate_io", "PAC/common/device/device.cpp: camera_DI3::get_result"]}
{"id": "C110", "title": "An electronic fuse does what it is told and no more", "statement": "A command for all or for one channel of a fuse switches those channels and no others; nothing is switched without a command, also when the connection is lost and comes back; voltage, state and error are those the fuse sent.", "quantifier": "every history of cycles with any process data and link states, and of commands", "why_tests_cant": "Whether the states written at a reconnection are fresh depends on the order of two cycles around it; tests evaluate once.", "anchors": ["PAC/common/device/device.cpp: circuit_breaker::evaluate_io", "PAC/common/device/device.cpp: circuit_breaker::set_cmd", "PAC/common/device/device.cpp: circuit_breaker::direct_on", "PAC/common/device/device.cpp: circuit_breaker::direct_off", "PAC/common/device/device.cpp: circuit_breaker::get_state", "PAC/common/device/device.cpp: circuit_breaker::get_value"]}
{"id": "C111", "title": "A power supply does what it is told and no more", "statement": "A command for all or one channel of a power supply, or for its nominal current, is sent with the valid mark 300 ms later, together with the reported states of the other channels; without commands nothing is ever marked valid; a second later the output repeats the reported states.", "quantifier": "every history of cycles at any times with any process data and link states, and of commands", "why_tests_cant": "The protocol depends on the times of cycles around a command and on the link; tests set the times by hand for one case.", "anchors": ["PAC/common/device/device.cpp: power_unit::evaluate_io", "PAC/common/device/device.cpp: power_unit::sync_pdout", "PAC/common/device/device.cpp: power_unit::direct_on", "PAC/common/device/device.cpp: power_unit::direct_off", "PAC/common/device/device.cpp: power_unit::set_cmd", "PAC/common/device/device.cpp: power_unit::get_value", "PAC/common/device/device.cpp: power_unit::get_state"]}
{"id": "C112", "title": "The server reads the states of all devices from the text", "statement": "The text with the states of the devices is a Lua chunk: the server finds one table per device under its name, with its mode, state, value, additional fields and parameters; integers exactly, other numbers up to half of the last printed place.", "quantifier": "every list of devices of any kind with any names, states, values and parameters", "why_tests_cant": "Tests compare the text of single devices with literals; whether every combination of kinds and values can be read back needs a reader and all inputs.", "anchors": ["PAC/common/device/manager.cpp: device_manager::save_device", "PAC/common/device/base.cpp: device::save_device", "PAC/common/device/base.cpp: par_device::save_device", "PAC/common/device/device.cpp: camera::save_device_ex", "PAC/common/device/device.cpp: circuit_breaker::save_device_ex", "PAC/common/device/device.cpp: power_unit::save_device_ex", "PAC/common/device/device.cpp: concentration_e_ok::save_device_ex", "PAC/common/device/valve.cpp: valve::save_device_ex"]}
{"id": "C113", "title": "IO-Link shut-off valves carry out commands and show what the head reports", "statement": "After any history of cycles and commands, the solenoid bits sent to the head of a ThinkTop, SORIO or T.VIS valve are those of the last command, the other bits of the byte are left alone, and position, state and error shown are those in the last process data; no command crashes the controller.", "quantifier": "every history of cycles, commands and blinks, every report of the head, every content of the output image, channels present or missing", "why_tests_cant": "Tests set single bit patterns by hand; the layout of the bytes for all reports and the order of commands and cycles need all histories.", "anchors": ["PAC/common/device/valve.cpp: valve_iolink_shut_off_thinktop", "PAC/common/device/valve.cpp: valve_iolink_shut_off_sorio", "PAC/common/device/valve.cpp: valve_iolink_gea_tvis_a15", "PAC/common/device/valve.cpp: valve_iolink_gea_tvis_a15_ds", "PAC/common/device/valve.h: valve_iolink_gea_tvis_a15::in_data", "PAC/common/device/valve.cpp: valve::get_state"]}
{"id": "C114", "title": "A stuck IO-Link shut-off valve is reported", "statement": "More than the switching time after a ThinkTop, SORIO or T.VIS valve was told to open or close, an error is shown exactly if its head is not connected, has an error or is not in the position the valve was told.", "quantifier": "every history, every report, all times, all switching times below 2^24 ms", "why_tests_cant": "Needs all reports at all times after arbitrary histories, including commands repeated in every cycle.", "anchors": ["PAC/common/device/valve.cpp: valve_iolink_shut_off_thinktop", "PAC/common/device/valve.cpp: valve_iolink_shut_off_sorio", "PAC/common/device/valve.cpp: valve_iolink_gea_tvis_a15", "PAC/common/device/valve.cpp: valve_iolink_gea_tvis_a15_ds", "PAC/common/device/valve.h: valve_iolink_gea_tvis_a15::in_data", "PAC/common/device/valve.cpp: valve::get_state"]}
{"id": "C115", "title": "Acid and caustic never meet", "statement": "In no history of a washing line are the suction valves of the acid and of the caustic tank open together, nor the return valves of both; and what is taken from one tank cannot return to the other, except in the two self-cleaning steps that do so on purpose.", "quantifier": "every history of cycles with any readings, commands in any order and changes of the program, every setting of the line", "why_tests_cant": "Tests drive single steps with fixed readings; the valves of a step depend on those left by the steps, commands and errors before it, so all histories are needed.", "anchors": ["PAC/common/cip_tech_def.cpp: cipline_tech_object::_InitStep", "PAC/common/cip_tech_def.cpp: cipline_tech_object::_DoStep", "PAC/common/cip_tech_def.cpp: cipline_tech_object::SortRR", "PAC/common/cip_tech_def.cpp: cipline_tech_object::_InitToObject", "PAC/common/cip_tech_def.cpp: cipline_tech_object::_InitFromObject", "PAC/common/cip_tech_def.cpp: cipline_tech_object::_InitOporCirc", "PAC/common/cip_tech_def.cpp: cipline_tech_object::_InitCirc", "PAC/common/cip_tech_def.cpp: cipline_tech_object::SCInitPumping", "PAC/common/cip_tech_def.cpp: cipline_tech_object::SCPumping", "PAC/common/cip_tech_def.cpp: cipline_tech_object::_StopDev"]}
{"id": "C116", "title": "The return has one way, the pump always has one", "statement": "At most one of the return valves V07 to V12 of a washing line is open, and whenever its pump is on the liquid has a way out.", "quantifier": "every history of cycles with any readings, commands in any order and changes of the program, every setting of the line", "why_tests_cant": "Tests drive single steps with fixed readings; the valves of a step depend on those left by the steps, commands and errors before it, so all histories are needed.", "anchors": ["PAC/common/cip_tech_def.cpp: cipline_tech_object::_InitFilCirc", "PAC/common/cip_tech_def.cpp: cipline_tech_object::_InitCirc", "PAC/common/cip_tech_def.cpp: cipline_tech_object::_OporCirc", "PAC/common/cip_tech_def.cpp: cipline_tech_object::SortRR", "PAC/common/cip_tech_def.cpp: cipline_tech_object::SCPumping", "PAC/common/cip_tech_def.cpp: cipline_tech_object::EvalPIDS", "PAC/common/cip_tech_def.cpp: cipline_tech_object::EvalBlock"]}
{"id": "C117", "title": "Only concentrated solution returns to the tanks", "statement": "While caustic or acid is driven out of the washed object, the return is open to its tank only if within the last 3 seconds the concentration was at least the minimum and the tank was not full.", "quantifier": "every history of cycles with any readings, commands in any order and changes of the program, every setting of the line, all times", "why_tests_cant": "Tests drive single steps with fixed readings; the valves of a step depend on those left by the steps, commands and errors before it, so all histories are needed.", "anchors": ["PAC/common/cip_tech_def.cpp: cipline_tech_object::SortRR", "PAC/common/cip_tech_def.cpp: cipline_tech_object::_ToObject", "PAC/common/cip_tech_def.cpp: cipline_tech_object::_FromObject", "PAC/common/cip_tech_def.cpp: cipline_tech_object::_OporCIP", "PAC/common/cip_tech_def.cpp: cipline_tech_object::_InitOporCirc", "PAC/common/cip_tech_def.cpp: cipline_tech_object::_OporCirc", "PAC/common/cip_tech_def.cpp: cipline_tech_object::_Circ"]}
{"id": "C118", "title": "The small tank of a washing line does not overflow", "statement": "After a cycle of a washing line that found the small tank full and stayed in its step, the water valve is closed.", "quantifier": "every history of cycles with any readings, commands in any order and changes of the program, every setting of the line, the object being a line or not", "why_tests_cant": "Tests drive single steps with fixed readings; the valves of a step depend on those left by the steps, commands and errors before it, so all histories are needed.", "anchors": ["PAC/common/cip_tech_def.cpp: cipline_tech_object::_ToObject", "PAC/common/cip_tech_def.cpp: cipline_tech_object::_FromObject", "PAC/common/cip_tech_def.cpp: cipline_tech_object::FilRR", "PAC/common/cip_tech_def.cpp: cipline_tech_object::OpolRR", "PAC/common/cip_tech_def.cpp: cipline_tech_object::_Circ", "PAC/common/cip_tech_def.cpp: cipline_tech_object::SCInitPumping", "PAC/common/cip_tech_def.cpp: cipline_tech_object::SCPumping"]}
{"id": "C119", "title": "A washing line does not pump from an empty tank", "statement": "A washing line that finds the tank empty from which it feeds caustic or acid stops with an error, its pump off and its suction valves closed.", "quantifier": "every history of cycles with any readings, commands in any order and changes of the program, every setting of the line", "why_tests_cant": "Tests drive single steps with fixed readings; the valves of a step depend on those left by the steps, commands and errors before it, so all histories are needed.", "anchors": ["PAC/common/cip_tech_def.cpp: cipline_tech_object::_ToObject", "PAC/common/cip_tech_def.cpp: cipline_tech_object::_FromObject", "PAC/common/cip_tech_def.cpp: cipline_tech_object::_FillCirc", "PAC/common/cip_tech_def.cpp: cipline_tech_object::_StopDev"]}
{"id": "C120", "title": "Steam only with flow, no pump against the object", "statement": "After a cycle of a washing line that stayed in its step the steam valve is open only if the pump is on, the flow is above its minimum and heat is wanted; and the pump is off if the object does not allow it.", "quantifier": "every history of cycles with any readings, commands in any order and changes of the program, every setting of the line", "why_tests_cant": "Tests drive single steps with fixed readings; the valves of a step depend on those left by the steps, commands and errors before it, so all histories are needed.", "anchors": ["PAC/common/cip_tech_def.cpp: cipline_tech_object::EvalPIDS", "PAC/common/cip_tech_def.cpp: cipline_tech_object::EvalCipInProgress", "PAC/common/cip_tech_def.cpp: cipline_tech_object::InitFilRR"]}
{"id": "C121", "title": "Steps that await the return end only when it has come", "statement": "A washing line leaves a step that awaits the washing liquid only when the volume has been pumped, a flow was seen in the return after that, and the concentration fits; a prepared solution is accepted only at its concentration less the tolerance.", "quantifier": "every history of cycles with any readings, commands in any order and changes of the program, every setting of the line", "why_tests_cant": "Tests drive single steps with fixed readings; the valves of a step depend on those left by the steps, commands and errors before it, so all histories are needed.", "anchors": ["PAC/common/cip_tech_def.cpp: cipline_tech_object::_FromObject", "PAC/common/cip_tech_def.cpp: cipline_tech_object::CheckConc", "PAC/common/cip_tech_def.cpp: cipline_tech_object::_GoToStep"]}
{"id": "C122", "title": "The concentration of the return is a calibrated, monotone reading", "statement": "For a calibrated line the concentration is never negative, is the nominal one for the nominal solution and zero for water at every temperature, and does not fall when the conductivity rises.", "quantifier": "all conductivities, temperatures, coefficients and calibrations", "why_tests_cant": "A curve over real quantities; tests check single points.", "anchors": ["PAC/common/cip_tech_def.cpp: cipline_tech_object::GetConc"]}
{"id": "C123", "title": "The server reads the technological objects as they are", "statement": "The text of the technological objects is a Lua text; whoever runs it finds for every object its command, the recipe loaded last, the states and availability of its operations, their times and steps, and its parameters (with two decimals), and nothing else changes.", "quantifier": "all lists of objects, with any operations, states, steps, recipe names and parameters, and all tables of the reader", "why_tests_cant": "Tests compare the text of one small object with a literal; whether Lua reads every text back as what was written needs all names and values.", "anchors": ["PAC/common/tech_def.cpp: tech_object::save_device", "PAC/common/param_ex.h: parameters::save_device", "PAC/common/param_ex.h: parameters::save_device_ex", "PAC/common/param_ex.h: parameters::save_dev", "PAC/common/operation_mngr.h: operation::en_state_str"]}
{"id": "C124", "title": "The backup of the parameters is complete", "statement": "The backup is a Lua text that calls `params` once for every object and kind of parameters, in order, with the name of the object, the number of the kind, and all values in their order.", "quantifier": "all lists of objects and parameters", "why_tests_cant": "A text format over all numbers and sizes; tests compare single literals.", "anchors": ["PAC/common/tech_def.cpp: tech_object::save_params_as_Lua_str", "PAC/common/tech_def.cpp: tech_object_manager::save_params_as_Lua_str", "PAC/common/param_ex.cpp: params_manager::save_params_as_Lua_str"]}
{"id": "C125", "title": "A backup that is sent back restores the parameters", "statement": "A restored backup gives every parameter of the objects in it its saved value, changes nothing else, and is answered with an error if it was not carried out.", "quantifier": "all controllers and backups of objects with the same numbers of parameters, all roundings of Lua numbers to floats", "why_tests_cant": "No test restores a backup; the effect depends on the numbers and values of all parameters.", "anchors": ["PAC/common/param_ex.cpp: params_manager::restore_params_from_server_backup", "PAC/common/tech_def.cpp: tech_object::set_param", "PAC/common/PAC_dev_lua.cpp: tolua_PAC_dev_open"]}
{"id": "C126", "title": "The controller shows its parameters as they were set", "statement": "After any commands the state of the controller, read as a Lua text, shows under the name of every parameter the value of the last command that concerns it (or its default after a reset), and the running time, the answer and the nodes as they are.", "quantifier": "all histories of commands with any names and values, reloads and resets; all states of the controller", "why_tests_cant": "Ten names are matched by hand in two places (setting and showing) and shown through a text; tests check single names.", "anchors": ["PAC/common/PAC_info.cpp: PAC_info::set_cmd", "PAC/common/PAC_info.cpp: PAC_info::save_device", "PAC/common/PAC_info.cpp: PAC_info::reset_params"]}
{"id": "C127", "title": "A reload says whether the script was loaded", "statement": "A command that reloads the restrictions is answered with success only if the script of the project was loaded, otherwise with the reason, and the answer can be read by the server.", "quantifier": "all contents of the two script files: missing, any version, any error message", "why_tests_cant": "The answer goes through several buffers and into a Lua text; tests look only at the result of single cases.", "anchors": ["PAC/common/PAC_info.cpp: PAC_info::set_cmd", "PAC/common/PAC_info.cpp: PAC_info::save_device", "common/lua_manager.cpp: lua_manager::reload_script", "common/lua_manager.cpp: check_file"]}
{"id": "C128", "title": "The list of washing programs offers what the object allows", "statement": "After an object was chosen, and as long as only programs are chosen and washed, the list for the server and the rows at the panel offer exactly the programs that the mask of the object allows, each once; before that they offer the preparation of solutions.", "quantifier": "all histories of chosen objects with any mask, chosen programs, cycles, starts and resets", "why_tests_cant": "The list is formed at six places from 17 bits and depends on the program loaded; tests try single masks.", "anchors": ["PAC/common/cip_tech_def.cpp: cipline_tech_object::formProgramList", "PAC/common/cip_tech_def.cpp: cipline_tech_object::resetProgramList", "PAC/common/cip_tech_def.cpp: cipline_tech_object::EvalRecipes", "PAC/common/modbus_serv.cpp: ModbusServ::ModbusServFunction"]}
{"id": "C129", "title": "The washing program that was chosen is loaded, shown and run", "statement": "Choosing an offered program, by its number or by its row at the panel, makes it the one that runs, with the final rinse and with the way of the rinse that was chosen; the name that is shown is always that of what will run; and nothing that was not offered is run.", "quantifier": "all histories of chosen objects and programs, starts and resets; every number and every row", "why_tests_cant": "What runs is spread over four variables that are set and cleared in different places; only histories show what is left from an earlier choice.", "anchors": ["PAC/common/cip_tech_def.cpp: cipline_tech_object::loadProgramFromList", "PAC/common/cip_tech_def.cpp: cipline_tech_object::EvalRecipes", "PAC/common/cip_tech_def.cpp: cipline_tech_object::_ResetLinesDevicesBeforeReset", "PAC/common/modbus_serv.cpp: ModbusServ::ModbusServFunction"]}
{"id": "C130", "title": "A stuck valve on a terminal, on AS-i or with a flushing valve is reported, and only a stuck one", "statement": "The state shown is always one of what the valve was last told; a feedback error is shown exactly when the valve is to be open or closed, feedback is used and disagrees, and more than P_ON_TIME has passed since it was told so (for classes that look at it, also since the feedback was last seen to agree).", "quantifier": "all histories of commands, inputs and looks with a clock that does not run backwards; seven classes of valves", "why_tests_cant": "Seven classes have their own commands and feedback, with the start of the time set in different places; only histories of commands, repeated or not, show what is left out.", "anchors": ["PAC/common/device/valve.cpp: valve_iol_terminal_DO1_DI1_on::get_fb_state", "PAC/common/device/valve.cpp: valve_iol_terminal_DO1_DI1_off::get_fb_state", "PAC/common/device/valve.cpp: valve_iol_terminal_DO1_DI2::get_fb_state", "PAC/common/device/valve.cpp: valve_iol_terminal_mixproof_DO3_DI2::get_fb_state", "PAC/common/device/valve.cpp: valve_iol_terminal::get_state", "PAC/common/device/valve.cpp: valve_AS::get_fb_state", "PAC/common/device/valve.cpp: valve_AS_DO1_DI2::get_fb_state", "PAC/common/device/valve.cpp: valve_mini_flushing::get_fb_state", "PAC/common/device/valve.cpp: valve::get_state"]}
{"id": "C131", "title": "The server reads the list of alarms as it is", "statement": "The answer to the request of the alarms, run by the server, gives the list as it is: every critical error with its description, or without them every device whose alarm is not normal and every message of every object, with state, group, priority, number, type and suppression, in order and nothing else, under the number of the list. While there is a critical error no other alarm is sent. No other table of the server is changed.", "quantifier": "all lists of critical errors, devices and objects, all texts, all states of the server", "why_tests_cant": "The text is assembled from many pieces with user texts between them; whether every combination parses back to the same list cannot be shown by samples.", "anchors": ["common/PAC-driver/g_errors.cpp: tech_dev_error::save_as_Lua_str", "common/PAC-driver/g_errors.cpp: tech_obj_error::save_as_Lua_str", "common/PAC-driver/g_errors.cpp: errors_manager::save_as_Lua_str", "common/PAC-driver/g_errors.cpp: tech_obj_error::get_priority", "common/PAC-driver/g_errors.cpp: tech_obj_error::get_group", "PAC/common/PAC_err.cpp: PAC_critical_errors_manager::save_as_Lua_str", "common/PAC-driver/g_device.cpp: device_communicator::write_devices_states_service, CMD_GET_PAC_ERRORS"]}
{"id": "C132", "title": "The description of a critical error names what has failed", "statement": "The description of a lost node, or of a node that is off for service, carries the name and the address of that node. Two different critical errors never have the same description.", "quantifier": "all projects with any number of nodes, names and addresses, all critical errors", "why_tests_cant": "The node is looked up by its number in a list by position, and the text is built in a buffer of 200 bytes; only all numberings and lengths show where it fails.", "anchors": ["PAC/common/PAC_err.cpp: PAC_critical_errors_manager::get_alarm_descr", "PAC/common/bus_coupler_io.cpp: io_manager::get_node"]}
{"id": "C133", "title": "A dosing gives the concentrate which is missing", "statement": "When a solution is prepared, the dosing pump runs, over any stops and resumes, for the time in which it gives the volume that brings the tank from the concentration found to the one asked for (at least one litre), and no longer than to the first cycle after it; a concentration over the limit ends the dosing. The pump never runs while the line is stopped.", "quantifier": "all parameters, concentrations, histories of cycles, stops and resumes of a dosing", "why_tests_cant": "The volume solves an equation in the parameters, and the time is counted over any interruptions.", "anchors": ["PAC/common/cip_tech_def.cpp: cipline_tech_object::InitAddRR", "PAC/common/cip_tech_def.cpp: cipline_tech_object::AddRR", "PAC/common/cip_tech_def.cpp: cipline_tech_object::InitCheckConc", "PAC/common/cip_tech_def.cpp: cipline_tech_object::CheckConc", "PAC/common/cip_tech_def.cpp: cipline_tech_object::_Stop"]}
{"id": "C134", "title": "The concentrate shown as used is what the pump has given", "statement": "The amount shown as used during the preparation of a solution is the flow of the dosing pump times the time it has run.", "quantifier": "all histories of circulation, dosing, stops and resumes", "why_tests_cant": "The amount is summed up from the differences of a displayed time, which is set to zero in several places; whether seconds are counted once depends on the whole history.", "anchors": ["PAC/common/cip_tech_def.cpp: cipline_tech_object::CircRR", "PAC/common/cip_tech_def.cpp: cipline_tech_object::AddRR", "PAC/common/cip_tech_def.cpp: cipline_tech_object::InitAddRR", "PAC/common/cip_tech_def.cpp: cipline_tech_object::InitCircRR"]}
{"id": "C135", "title": "A concentrate that has run out is reported", "statement": "When a dosing needs, within a tenth, the same volume as the last one, i.e. the last one had no effect, a possible lack of the medium is reported once, and never else.", "quantifier": "all histories of a line from its start, all parameters", "why_tests_cant": "Whether there is a warning depends on the sequence of all dosings and on which cycle ended each of them.", "anchors": ["PAC/common/cip_tech_def.cpp: cipline_tech_object::InitAddRR", "PAC/common/cip_tech_def.cpp: cipline_tech_object::AddRR", "PAC/common/cip_tech_def.h: no_liquid_is_warning"]}
{"id": "C136", "title": "The average concentration is weighted by volume", "statement": "The average concentration of a check is the sum of the measured values, each weighted by the litres that passed since the last one, by all litres; a counter which moves back changes nothing.", "quantifier": "all sequences of concentrations and counter readings", "why_tests_cant": "The average is kept incrementally, litre by litre, for sequences of any length.", "anchors": ["PAC/common/cip_tech_def.cpp: TSav::Add", "PAC/common/cip_tech_def.cpp: TSav::R", "PAC/common/cip_tech_def.cpp: TSav::Q"]}
{"id": "C137", "title": "A client uses only its own connection", "statement": "Every frame of a client is written to the connection to its own device, every answer is read from it; a descriptor stays open exactly while its client is connecting or connected; the standard streams and the sockets of the server are never closed by a client.", "quantifier": "all histories of calls, passes of the communicator, accepted and dropped connections of the server, all answers of the operating system", "why_tests_cant": "Descriptors are numbers which the operating system gives out again: whether a stale number hits the connection of another device depends on the whole history.", "anchors": ["PAC/linux/l_tcp_client.cpp: linux_tcp_client::AsyncConnect", "PAC/linux/l_tcp_client.cpp: linux_tcp_client::AsyncSend", "PAC/linux/l_tcp_client.cpp: linux_tcp_client::AsyncRecive", "PAC/linux/l_tcp_client.cpp: linux_tcp_client::Disconnect", "PAC/linux/l_tcp_cmctr.cpp: tcp_communicator_linux::evaluate"]}
{"id": "C138", "title": "A request ends with an answer, an error or a timeout", "statement": "A request which was sent ends with an answer, an error or a timeout when twice the time of the client has passed.", "quantifier": "all histories of calls and passes of the communicator, all delays and answers", "why_tests_cant": "The time is only looked at when something else happens; a test with a talkative peer never sees the difference.", "anchors": ["PAC/linux/l_tcp_client.cpp: linux_tcp_client::AsyncSend", "PAC/linux/l_tcp_client.cpp: linux_tcp_client::get_async_result", "PAC/linux/l_tcp_cmctr.cpp: tcp_communicator_linux::evaluate", "PAC/common/tcp_cmctr.cpp: tcp_communicator::add_async_client"]}
{"id": "C139", "title": "A lost connection is restored", "statement": "A client without a connection tries again and again, with pauses from five to at most thirty of its times; a connection closed by the other side is given up and made again.", "quantifier": "all histories of calls, all failures of connections, clients and times", "why_tests_cant": "The pauses grow over sequences of failures and shrink at successes, the bounds have to hold over all of them.", "anchors": ["PAC/common/tcp_client.cpp: tcp_client::checkConnection", "PAC/linux/l_tcp_client.cpp: linux_tcp_client::AsyncConnect", "PAC/linux/l_tcp_client.cpp: linux_tcp_client::AsyncRecive"]}
{"id": "C140", "title": "The output of a washing regulator keeps its limits", "statement": "Whatever the parameters and values, a calculation of the regulators of heating and flow sets an output between zero and the largest one, which is 100 per cent or the parameter for it.", "quantifier": "all parameters, values, tasks and histories of calculations, resets, starts and stops", "why_tests_cant": "The output depends on all former values, and the ramp of the start is added after the limits were applied.", "anchors": ["PAC/common/cip_tech_def.cpp: MSAPID::pid_eval", "PAC/common/cip_tech_def.cpp: MSAPID::acceleration", "PAC/common/cip_tech_def.cpp: MSAPID::eval"]}
{"id": "C141", "title": "A washing regulator starts slowly", "statement": "After it has been switched on the output rises, during the time of the start, at most proportionally to the time.", "quantifier": "all histories before the start, all values and parameters, times of the calculations", "why_tests_cant": "What was left by former starts and by the manual mode decides; only some histories show it.", "anchors": ["PAC/common/cip_tech_def.cpp: MSAPID::acceleration", "PAC/common/cip_tech_def.cpp: MSAPID::pid_on", "PAC/common/cip_tech_def.cpp: MSAPID::reset", "PAC/common/cip_tech_def.cpp: MSAPID::pid_eval"]}
{"id": "C142", "title": "A lasting deviation is driven out", "statement": "While the value stays under its task the output of a working regulator reaches its largest value, while it stays over it, zero; the number of intervals is known from the parameters.", "quantifier": "all histories before, positive factor, times and range, values under or over the task", "why_tests_cant": "It is about the limit of a sequence of calculations of any length.", "anchors": ["PAC/common/cip_tech_def.cpp: MSAPID::pid_eval"]}
{"id": "C143", "title": "Off is off, manual is manual, and there are no jumps between", "statement": "A regulator which is off gives zero until it is switched on. In the manual mode it gives the value of the operator, beginning with the last value of the regulator. When the manual mode ends, the output goes on from the manual value without a jump.", "quantifier": "all states, histories of events after the switching off, times", "why_tests_cant": "The jump depends on what the regulator computed unseen during the manual mode.", "anchors": ["PAC/common/cip_tech_def.cpp: MSAPID::off", "PAC/common/cip_tech_def.cpp: MSAPID::pid_eval", "PAC/common/cip_tech_def.cpp: MSAPID::reset"]}
{"id": "C144", "title": "Outputs follow the commands", "statement": "In every pass of the main loop each message to a coupler sets the channel of every device to what all commands given to it so far ask for: those of the operator always, those of the program, of OPC UA clients and of the lamps' manager outside manual mode only. Channels without a device are off. No pass meets undefined behaviour whatever the couplers answer. After a request to stop, and with the switches for running without couplers, nothing is sent.", "quantifier": "all configurations with separate channels and at most 255 channels of a kind per coupler, all histories of passes: answers and failures of the network, programs, commands of the operator, requests of clients, moments of the stop", "why_tests_cant": "The order of reading, program, writing and serving over any number of passes and any failures of the network cannot be enumerated.", "anchors": ["PAC_control_projects/main_control_prg/main.cpp: main", "PAC/common/uni_bus_coupler_io.cpp: read_inputs, write_outputs", "PAC/common/device/base.cpp: device::set_cmd", "PAC/common/OPCUAServer.cpp"]}
{"id": "C145", "title": "Reaction within the same pass", "statement": "When the couplers answer, the program sees exactly the inputs of these answers, and its last command to a device outside manual mode is sent to the coupler of this device in the only message this coupler gets in the same pass.", "quantifier": "all configurations, histories before, answers, programs as functions of the inputs", "why_tests_cant": "It relates what is received and what is sent in one pass after any history.", "anchors": ["PAC_control_projects/main_control_prg/main.cpp: main", "PAC/common/uni_bus_coupler_io.cpp: read_inputs, write_outputs"]}
{"id": "C146", "title": "OPC UA clients act only when allowed", "statement": "Without permission for control, requests of OPC UA clients change nothing and those to write are refused. A request to read gives the state asked for by all commands so far. A request to write that was answered with success has been carried out.", "quantifier": "all states, passes and lists of requests", "why_tests_cant": "Requests come at any moment between the commands of others.", "anchors": ["PAC/common/OPCUAServer.cpp: OPCUA_server::read_state, write_state, read_value, write_value, evaluate", "PAC_control_projects/main_control_prg/main.cpp: main"]}
{"id": "C147", "title": "A fault of a device in use pauses the operation", "statement": "In a pass that leaves an operation running, a failed device whose alarms are not suppressed and that an active part of the operation uses pauses it, when pausing is switched on; the message names the failed devices of one action in use and no others. The same holds when all durations of the steps are zero or a step is overdue. Otherwise the operation is left alone. There is at most one message and one pause per pass, and nothing of the running state stays active. With pausing switched off the states of the devices do not matter.", "quantifier": "all configurations of operations, histories of calls, states of devices, parameters, settings, and commands given during the evaluation", "why_tests_cant": "The fault may come in any state of any operation with any active steps.", "anchors": ["PAC/common/tech_def.cpp: tech_object::evaluate, is_check_mode", "PAC/common/operation_mngr.cpp: operation_state::check_devices, check_steps_params, check_max_step_time, step::check_devices, action::check_devices"]}
{"id": "C148", "title": "No start with failed devices", "statement": "An idle operation is not switched on while a device it is going to use at once (of its own or of its first step) has failed, unless the check is switched off for it; it is not refused because of devices otherwise.", "quantifier": "all configurations, histories that end with the operation idle, states of devices", "why_tests_cant": "The history before and the actions are arbitrary.", "anchors": ["PAC/common/tech_def.cpp: tech_object::set_mode, check_operation_on", "PAC/common/operation_mngr.cpp: operation::check_devices_on_run_state"]}
{"id": "C149", "title": "Automatic switching on", "statement": "While a request to switch an idle operation on by signals stays, it is tried in every evaluation and switched on in the first one in which this is possible. It is given up in the first repeated attempt later than the configured time after the first one; then nothing happens until the request disappears. Refusals are reported at once and then no more often than the configured time.", "quantifier": "all sequences of evaluations with their times, settings and possibilities to switch on", "why_tests_cant": "The moments of the evaluations and of the signals are arbitrary.", "anchors": ["PAC/common/operation_mngr.cpp: operation::evaluate, process_auto_switch_on"]}
{"id": "C150", "title": "Devices given to an action are in it", "statement": "After any sequence of calls every group and subgroup of an action has exactly the devices given to it, in the order of the calls. The same holds for the groups of seats.", "quantifier": "all sequences of calls with any numbers of groups and subgroups", "why_tests_cant": "The descriptions come from projects, with any numbers in any order.", "anchors": ["PAC/common/operation_mngr.cpp: action::add_dev, open_seat_action::add_dev"]}
{"id": "C151", "title": "The control loop is entered only with a complete project", "statement": "The control loop is entered only when every file of the project has the right version, every script has run, modules, devices and objects have been created, the main script and the user's initialisation have succeeded, and all that has been done in its fixed order (the server opens its ports after the configuration, parameters are settled last). With all this in place the loop is entered. Whatever fails, what has been done is a beginning of that order.", "quantifier": "all command lines, contents of files, results of scripts, numbers of objects", "why_tests_cant": "Each part of the start can fail in each project; combinations of faults are arbitrary.", "anchors": ["PAC_control_projects/main_control_prg/main.cpp: main", "common/lua_manager.cpp: lua_manager::init", "PAC/common/prj_mngr.cpp: project_manager::proc_main_params, lua_load_configuration"]}
{"id": "C152", "title": "Files of another version are refused", "statement": "A file that begins with '--version = ' and a number has that version; a file that does not begin with '--version' has none. With a file missing or of another version the program ends before it has run any script, read or changed parameters, or opened a port.", "quantifier": "all contents of files, command lines", "why_tests_cant": "The contents of the first line are arbitrary.", "anchors": ["common/lua_manager.cpp: check_file, lua_manager::init"]}
{"id": "C153", "title": "The start is memory safe for every directory", "statement": "The start has no undefined behaviour, whatever the directories of the project and the system files, for versions and ports in the range of int.", "quantifier": "all command lines, contents of files, results of scripts", "why_tests_cant": "The length of the directories is arbitrary.", "anchors": ["common/lua_manager.cpp: lua_manager::init", "PAC/common/prj_mngr.cpp: project_manager::proc_main_params"]}
{"id": "C154", "title": "The server listens on the ports it is told to", "statement": "Without the option the server listens on 10000 and for Modbus on 10502; with a positive port p on p and p + 502.", "quantifier": "all command lines and projects", "why_tests_cant": "Ports have 65535 values and the option is an int.", "anchors": ["PAC/common/prj_mngr.cpp: project_manager::proc_main_params", "PAC/common/tcp_cmctr.cpp: tcp_communicator::set_port", "PAC/linux/l_tcp_cmctr.cpp: tcp_communicator_linux::net_init"]}
{"id": "C155", "title": "Damaged parameters are noticed at the start", "statement": "When a byte of the saved parameters has changed while the controller was off, the start does not use it as if it was saved: the check sum, which tells any two memories apart that differ in one byte, is compared.", "quantifier": "all memories, positions and values of the damaged byte", "why_tests_cant": "There are 30720 positions with 256 values over arbitrary contents.", "anchors": ["PAC/common/param_ex.cpp: params_manager::solve_CRC, init, final_init"]}
{"id": "C156", "title": "Sockets of the bus couplers are not leaked", "statement": "At any time a bus coupler has exactly one open socket when it is connected and none otherwise, no two couplers share one, and no system call is made with a descriptor it cannot handle, in whatever order connections fail, are lost, or couplers are switched off and on.", "quantifier": "all numbers of couplers, histories of exchanges with all results of the system calls, commands, and descriptors opened and closed by the rest of the program", "why_tests_cant": "A controller runs for years; a leak needs a certain failure of a certain call at a certain time.", "anchors": ["PAC/common/uni_bus_coupler_io.cpp: uni_io_manager::net_init, e_communicate, disconnect", "PAC/common/PAC_info.cpp: PAC_info::set_cmd"]}
{"id": "C157", "title": "Faults of analog sensors are noticed", "statement": "When the input module of an analog sensor signals a broken wire or a value out of range, or the sensor has no channel, its state is negative and the value (temperature) or volume (level) used by programs is the one configured for errors; otherwise the state is not negative and the value is the scaled input plus the correction.", "quantifier": "all input modules, raw values, corrections, ranges and error values", "why_tests_cant": "The raw values that mean a fault differ from module to module; a test feeds a few of them to one class.", "anchors": ["PAC/common/device/base.cpp: AI1::get_state, AI1::get_value, level::get_volume", "PAC/common/device/device.cpp: temperature_e, temperature_e_analog, pressure_e, analog_input", "PAC/common/bus_coupler_io.cpp: io_device::get_AI"]}
{"id": "C158", "title": "Control valves with IO-Link get their set points", "statement": "A set point given to a control valve is in the output data of this valve, with the byte order of the valve, until the next one, independent of all other calls and valves; position, state and end positions are those of the last input data; set points are within 0 to 100 per cent.", "quantifier": "all numbers of valves with separate data, all histories of evaluations, set points and commands", "why_tests_cant": "The data of several valves are in one image and an initial stub is shared; what a call leaves depends on the order of calls.", "anchors": ["PAC/common/device/valve.cpp: analog_valve_iolink"]}
{"id": "C159", "title": "The list of RFID tags is the field", "statement": "At any time the tags a program gets from an RFID reader are exactly those the driver reported as coming and not as going since the connection was made, each with its code, antenna and signal, in the order in which they came; any number may be asked for.", "quantifier": "all histories of reports of any length, evaluations with all results of the driver, connections and handles", "why_tests_cant": "The list depends on the whole history of reports; deletion inside a loop and a fixed array fail only for certain sequences.", "anchors": ["common/RFID/rfid_reader.cpp: ResultHandlerASyncReadDataUntilEndOfBankAnyASync, get_EPC_info, get_EPC_cnt, disconnect"]}
{"id": "C160", "title": "The error of an RFID reader is shown exactly without a connection", "statement": "After each evaluation the critical error of the reader is shown exactly when there is no connection, set and reset in turn; a connection is given up only with the fourth failed command since the last successful one; with a connection the reading of tags is started once and stays.", "quantifier": "all histories of evaluations and reports with all results of the driver", "why_tests_cant": "Errors and reconnections depend on sequences of failures of the network and the driver.", "anchors": ["common/RFID/rfid_reader.cpp: evaluate, CallSetExtResultFlag, CallASyncReadDataAny, connect, disconnect"]}
{"id": "C161", "title": "The signal ready for washing follows the chosen recipe", "statement": "After each cycle of a washing line exactly the output that the recipe chosen last names as its signal of readiness is on, and none after the end of a washing or a reset, in whatever order recipes are chosen, washings end and resets are commanded.", "quantifier": "all projects, histories of cycles with choices of recipes, resets and ends of washings", "why_tests_cant": "It depends on what happened in the cycle before; a test has to choose a recipe in one particular cycle of 100 ms.", "anchors": ["PAC/common/cip_tech_def.cpp: EvalCipReadySignal, EvalRecipes, EvalCommands, resetLinesDevicesBeforeReset"]}
{"id": "C162", "title": "The water tank counts as empty with a hysteresis", "statement": "The tank of secondary water counts as empty while its switch for the low level is off or it is not used; with a limit configured also from the time its level is below the limit until it reaches the limit plus the difference.", "quantifier": "all limits, differences that are not negative, histories of readings of any length", "why_tests_cant": "A hysteresis is a property of histories of readings.", "anchors": ["PAC/common/cip_tech_def.cpp: waterTankIsEmpty"]}
{"id": "C163", "title": "A function a project defines for a washing line replaces the built-in one", "statement": "If a project defines one of the documented functions in the table of a washing line, that function is called with the line and the arguments and its answer is used; otherwise the built-in function is carried out. No call changes the depth of the interpreter's stack.", "quantifier": "all projects, functions, arguments, built-in functions, behaviours of the script, histories of initialisations and calls of any length", "why_tests_cant": "The script is written by the project, and whether a function is looked up at all depends on a table of 29 names and flags in two places of the code.", "anchors": ["PAC/common/cip_tech_def.cpp: initline, check_Lua_function, GoToStep, DoStep, InitStep, LoadProgram, FillCirc, InitFilCirc, OporCirc, InitOporCirc and the other wrappers"]}
{"id": "C164", "title": "A pause or block stops the devices of a washing line", "statement": "When a line is paused or blocked, its devices are stopped, also when functions of the project take part in it.", "quantifier": "all lines, scripts, plants, histories before the command", "why_tests_cant": "A script fails only in particular states of the plant; a test runs with a script that works.", "anchors": ["PAC/common/cip_tech_def.cpp: Stop, _Stop, StopDev, _StopDev, EvalCommands, EvalBlock"]}
{"id": "C165", "title": "Inputs of the modules plugged into a PFC200 are those of the last successful reading", "statement": "After every history of readings and writings each digital and analog input of the node is the bit or word of its channel in the last reading in which the library reported success.", "quantifier": "all configurations of modules that fit the buffers, answers of the library, histories of any length", "why_tests_cant": "A test rig has one set of modules and a bus that does not fail.", "anchors": ["PAC/linux/PAC_PFC200/bus_coupler_io_PFC200.cpp: io_manager_PFC200::read_inputs"]}
{"id": "C166", "title": "Outputs of the modules plugged into a PFC200 reach their channels", "statement": "Each writing puts every digital output into its bit and every analog output into its word of the data of the bus, whatever was there before, and outputs are reported as written only when they were.", "quantifier": "all configurations of modules that fit the buffers, values, histories, results of the library", "why_tests_cant": "Positions depend on all modules in front of a channel.", "anchors": ["PAC/linux/PAC_PFC200/bus_coupler_io_PFC200.cpp: io_manager_PFC200::write_outputs"]}
{"id": "C167", "title": "A PFC200 without the bus does not start", "statement": "The program starts only with a device of the bus that was found and opened and otherwise ends in an orderly way.", "quantifier": "all lists of devices, results of the library", "why_tests_cant": "It needs a broken controller.", "anchors": ["PAC/linux/PAC_PFC200/bus_coupler_io_PFC200.cpp: io_manager_PFC200::io_manager_PFC200"]}
{"id": "C168", "title": "A project configures its nodes of inputs and outputs safely", "statement": "Every script of calls that declare nodes, add them and set their analog channels is carried out without touching foreign memory, and afterwards each node is what the last call for it said and its analog channels are those set since.", "quantifier": "all scripts, numbers, texts and orders of calls", "why_tests_cant": "Projects are written by many people; a test has a handful of nodes with short names, in the usual order.", "anchors": ["PAC/common/bus_coupler_io.cpp: io_manager::init", "PAC/common/bus_coupler_io.cpp: io_manager::add_node", "PAC/common/bus_coupler_io.cpp: io_manager::init_node_AO", "PAC/common/bus_coupler_io.cpp: io_manager::init_node_AI", "PAC/common/bus_coupler_io.cpp: io_manager::io_node::io_node"]}
{"id": "C169", "title": "A channel of a device stays bound to the node it was given", "statement": "A channel that a project binds to a place of a node points to this place of the node the program exchanges data with under this number, at any time after, and to nothing if there is no such place.", "quantifier": "all scripts, channels, nodes and places", "why_tests_cant": "What matters is the order of calls anywhere in the scripts of a project.", "anchors": ["PAC/common/bus_coupler_io.cpp: IO_channels::init_channel", "PAC/common/bus_coupler_io.cpp: io_manager::get_DI_read_data", "PAC/common/bus_coupler_io.cpp: io_manager::get_DO_write_data", "PAC/common/bus_coupler_io.cpp: io_manager::add_node"]}
{"id": "C170", "title": "A washing starts only with the devices its parameters name", "statement": "For every project and all parameters: if each parameter of a signal is zero or names a device of its kind (of the line, of the project, or by its place), the washing can start and each signal is that device; if one names no device it is refused.", "quantifier": "all projects, lines, parameters, signals", "why_tests_cant": "Tests have a fixed project; which device is found depends on all names and places.", "anchors": ["PAC/common/cip_tech_def.cpp: cipline_tech_object::init_object_devices", "PAC/common/cip_tech_def.cpp: cipline_tech_object::check_DI", "PAC/common/cip_tech_def.cpp: cipline_tech_object::check_LS"]}
{"id": "C171", "title": "A washing that cannot start keeps no signals of the object before", "statement": "When the devices of an object are incomplete or its options contradict each other, no signal of the line is still that of the object washed before.", "quantifier": "all projects, parameters and objects before", "why_tests_cant": "It takes two objects, one of them with a mistake.", "anchors": ["PAC/common/cip_tech_def.cpp: cipline_tech_object::init_object_devices"]}
{"id": "C172", "title": "Options of the circulation are read from their parameter", "statement": "Each option of the circulation is its bit of the parameter, the number of feedings is given by eight bits, three if zero, and options that contradict each other prevent the start.", "quantifier": "all values of the parameter", "why_tests_cant": "Four billion values, of which a test has a few.", "anchors": ["PAC/common/cip_tech_def.cpp: cipline_tech_object::init_object_devices"]}
{"id": "C173", "title": "Parameters of a washing line through the panel", "statement": "Registers of the parameter groups hold the parameters of a washing line as floats: a message with any number of floats changes exactly the addressed parameters of exactly that line, a later reading gives the same bytes, values behind the last parameter are ignored, and a request for a line that does not exist changes nothing. A single register is written alone, and number 0 is refused.", "quantifier": "all numbers of lines and parameters, all addresses and lengths of messages, all values", "why_tests_cant": "tests read and write a few registers of one line; every address and length of a message, odd ones too, and all other parameters staying as they are, is not a matter of samples", "anchors": ["PAC/common/modbus_serv.cpp: ModbusServ::ModbusService, PackFloat, UnpackFloat", "PAC/common/param_ex.h: parameters::operator[]"]}
{"id": "C174", "title": "Devices of washing lines through the panel", "statement": "With its group and number the panel reaches every device of every washing line; a device that belongs to a line is reached only through numbers of that line; every request is defined, whichever number it names; different numbers name different devices.", "quantifier": "all groups, all numbers, all numbers of lines", "why_tests_cant": "group and number give thousands of combinations; a request for a line that does not exist ends in a call through a wrong class, which a test does not see as a failure", "anchors": ["PAC/common/modbus_serv.cpp: ModbusServ::get_device, ModbusServ::ModbusService"]}
{"id": "C175", "title": "Selecting a recipe from the list", "statement": "The panel shows the used recipes of a line in the order of their numbers; the length of the list, the name in every row and the recipe taken when a row is selected agree, for all sets of used recipes; while the line works nothing can be selected; only a used recipe can be selected.", "quantifier": "all contents of the memory of recipes, all rows, all values written", "why_tests_cant": "two to the power of 25 sets of used recipes; a value outside of the list is written only by a panel in an unusual state", "anchors": ["PAC/common/modbus_serv.cpp: ModbusServ::ModbusService", "PAC/common/mcaRec.cpp: TRecipeManager::getRecipeValue, getRecipeName"]}
{"id": "C176", "title": "Parameters of the edited recipe through the panel", "statement": "Writing a parameter of the edited recipe changes its four bytes and nothing else in the memory of recipes, and reading gives it back, for each of the 120 parameters; other numbers are refused.", "quantifier": "all recipes, parameters, values and contents of the memory", "why_tests_cant": "the last parameter and the number in front of the first are boundary cases nobody enters by hand", "anchors": ["PAC/common/modbus_serv.cpp: ModbusServ::ModbusService", "PAC/common/mcaRec.cpp: TRecipeManager::setValue, getValue, GetParamsCount"]}
{"id": "C177", "title": "Requests for a new list stay until they are confirmed", "statement": "After an order to renew the list of recipes or programs of a line, the panel sees the request exactly as long as fewer than ten confirmations of that line have come since the last order, for every history of orders and confirmations of all lines.", "quantifier": "all histories of orders and confirmations", "why_tests_cant": "orders and confirmations of several lines and panels interleave; tests play one of them", "anchors": ["PAC/common/modbus_serv.cpp: ModbusServ::ModbusService, UpdateRecipes, UpdateLineRecipes, UpdatePrograms, UpdateLinePrograms"]}
{"id": "C178", "title": "The server reads a washing line as it is", "statement": "The text which a washing line sends to the server is a Lua chunk that sets the table of this line and nothing else; the table holds command, state, step, recipes, programs, numbers of the cars, switches, the time without work, the parameters, the recipe which is edited and the statistics of the object exactly as they are (values of a recipe within half a hundredth), and for line 1 also the parameters and the media of the station.", "quantifier": "every station and line, every text, parameter and recipe", "why_tests_cant": "Any text of a recipe, a program or a car number and any parameter can be in the description; tests look at a handful of literal lines.", "anchors": ["PAC/common/cip_tech_def.cpp: cipline_tech_object::save_device", "PAC/common/param_ex.h: parameters::save_device"]}
{"id": "C179", "title": "A command for a washing line reaches the value which it names", "statement": "A command of the server for a parameter, a value of a recipe, the number of a car or a switch changes in the next description exactly the field it names to the value it gives; a parameter of a regulator during a washing is also stored in the recipe that is loaded and nowhere else; a number out of range changes nothing; switches are not changed during a washing; an unknown name is refused.", "quantifier": "every station, line, property, number and value", "why_tests_cant": "There are hundreds of pairs of property and number and every real value; tests send a few commands.", "anchors": ["PAC/common/cip_tech_def.cpp: cipline_tech_object::set_cmd", "PAC/common/cip_tech_def.cpp: cipline_tech_object::setSwitch", "PAC/common/mcaRec.cpp: TRecipeManager::setRecipeValue"]}
{"id": "C180", "title": "The parameters of self-cleaning are apart from the parameters of the station", "statement": "Whatever lines a station consists of and in whatever order they are created, a command for a parameter of self-cleaning changes this parameter, which the server then reads, and leaves the parameters of the station as they are.", "quantifier": "every list of line types, station, number and value", "why_tests_cant": "The set and order of lines comes from the project; tests create one kind of line.", "anchors": ["PAC/common/cip_tech_def.cpp: cipline_tech_object::cipline_tech_object", "PAC/common/cip_tech_def.cpp: cipline_tech_object::set_cmd", "PAC/common/cip_tech_def.cpp: cipline_tech_object::save_device"]}
{"id": "C181", "title": "A writer has access alone, and nobody waits for ever while others go on", "statement": "Whatever the interleaving of any number of threads that ask the guard for shared or exclusive access and give it back, a thread with exclusive access is the only one with access; whoever waits gets access if the others only finish what they have begun, within three steps per thread; and nobody has to wait if there is no reason to.", "quantifier": "every number of threads, every interleaving of their requests, wake-ups and releases", "why_tests_cant": "The races are between leaving the critical section and the operations on the semaphores; tests see a few of the interleavings.", "anchors": ["common/win_util/SWMRG.cpp: CSWMRG::WaitToRead, CSWMRG::WaitToWrite, CSWMRG::Done"]}
{"id": "C182", "title": "Nobody is passed over for ever by the guard of readers and writers", "statement": "Between the request of a thread for access and its access only a bounded number of other threads begin to use the resource.", "quantifier": "every number of threads and every interleaving", "why_tests_cant": "Starvation shows only in unbounded histories.", "anchors": ["common/win_util/SWMRG.cpp: CSWMRG::WaitToRead, CSWMRG::WaitToWrite, CSWMRG::Done"]}
{"id": "C183", "title": "The program reads what the PROFIBUS master sent last", "statement": "A bit, a word, a double word or a float that the program reads at a place of the image is the one which the master sent last in a cycle whose bytes reached the controller, in the byte order of PROFIBUS, for every place that lies in the 244 bytes.", "quantifier": "every history of cycles, commands and failures of the library, every place", "why_tests_cant": "244 places, 8 bits, all values and failures at any of seven calls; the class is replaced by a stub in tests.", "anchors": ["PAC/linux/PAC_PFC200/profibus_slave_PFC200.cpp: profibus_slave_PFC200::get_double", "PAC/linux/PAC_PFC200/profibus_slave_PFC200.cpp: profibus_slave_PFC200::get_bool", "PAC/linux/PAC_PFC200/profibus_slave_PFC200.cpp: profibus_slave_PFC200::get_int", "PAC/linux/PAC_PFC200/profibus_slave_PFC200.cpp: profibus_slave_PFC200::get_int4", "PAC/linux/PAC_PFC200/profibus_slave_PFC200.cpp: profibus_slave_PFC200::eval"]}
{"id": "C184", "title": "The PROFIBUS master gets what the program set last", "statement": "Each bit of the 244 bytes which the controller sends is the one that the program set last, as a bit or as part of a word; setting one leaves all others; a cycle reports success exactly if every call of the library succeeded.", "quantifier": "every history of commands and cycles, every place, bit and value", "why_tests_cant": "Words overlap each other and bits in any way; the order of commands is up to the program.", "anchors": ["PAC/linux/PAC_PFC200/profibus_slave_PFC200.cpp: profibus_slave_PFC200::set_bool", "PAC/linux/PAC_PFC200/profibus_slave_PFC200.cpp: profibus_slave_PFC200::set_int", "PAC/linux/PAC_PFC200/profibus_slave_PFC200.cpp: profibus_slave_PFC200::eval"]}
{"id": "C185", "title": "Each part of a wash is heated to its own temperature", "statement": "While the heater of a washing line is on in the first rinse, caustic, rinse after caustic, acid, rinse after acid, hot water, disinfectant or the last rinse, its task is the temperature which the recipe gives for this part, also after stops and resumptions. Nothing is heated or pumped while the small tank is filled with water or a washed tank is emptied. Circulations are heated. While the small tank is emptied the water for the next rinse is already heated to its temperature.", "quantifier": "every recipe, program and kind of object; every history of steps, stops and resumptions", "why_tests_cant": "Some steps take over what an earlier step has set, so the result depends on the way to the step; about 60 steps times programs, kinds of objects and stops.", "anchors": ["PAC/common/cip_tech_def.cpp: cipline_tech_object::_InitStep", "PAC/common/cip_tech_def.cpp: cipline_tech_object::_InitToObject", "PAC/common/cip_tech_def.cpp: cipline_tech_object::_InitFromObject", "PAC/common/cip_tech_def.cpp: cipline_tech_object::_InitOporCIP", "PAC/common/cip_tech_def.cpp: cipline_tech_object::_InitFilCirc", "PAC/common/cip_tech_def.cpp: cipline_tech_object::_InitOporCirc", "PAC/common/cip_tech_def.cpp: cipline_tech_object::_InitCirc"]}
{"id": "C186", "title": "A washing step pumps the volume of the recipe in the time it takes", "statement": "Steps which pump to the object or from it have the volume of the recipe for this step, its flow, and a limit of time of twice the time which the volume takes at this flow. With values of the recipe that are not negative every step can be set.", "quantifier": "every recipe, every history of steps, stops and resumptions", "why_tests_cant": "The amounts depend on the step, the program and the recipe, and the recipe holds any numbers.", "anchors": ["PAC/common/cip_tech_def.cpp: cipline_tech_object::_InitToObject", "PAC/common/cip_tech_def.cpp: cipline_tech_object::_InitFromObject", "PAC/common/cip_tech_def.cpp: cipline_tech_object::_InitDoseRR"]}
{"id": "C187", "title": "A circulation lasts the time of the recipe, counted only while the return is warm and flows", "statement": "A circulation of caustic, acid, hot water or disinfectant ends exactly in the first cycle in which the return is warm enough with flow, the time during which it was so exceeds the seconds of the recipe, and the object has signalled, now or before, that it may go on (if it has such a signal). Time with a cold return, without flow or while the wash was stopped does not count.", "quantifier": "every recipe, every history of cycles with any temperatures, flows and signals, stops and resumptions at any times", "why_tests_cant": "Depends on the whole history of samples; tests have a few cycles of a mocked clock.", "anchors": ["PAC/common/cip_tech_def.cpp: cipline_tech_object::_InitCirc", "PAC/common/cip_tech_def.cpp: cipline_tech_object::_Circ"]}
{"id": "C188", "title": "Self-cleaning steps use and end with the amount given for them", "statement": "A step of self-cleaning which pumps out the rest of a tank does so with the litres given for this tank; steps that rinse end exactly when their volume has passed, steps with a time exactly when it is over; the tanks are drained for the times given for them.", "quantifier": "all parameters of self-cleaning, all steps, all levels, counts and times", "why_tests_cant": "28 steps with 22 parameters; a step which never ends is not seen in a test of other steps.", "anchors": ["PAC/common/cip_tech_def.cpp: cipline_tech_object::SCInitPumping", "PAC/common/cip_tech_def.cpp: cipline_tech_object::SCPumping", "PAC/common/cip_tech_def.cpp: cipline_tech_object::timeIsOut", "PAC/common/cip_tech_def.cpp: cipline_tech_object::volumePassed"]}
{"id": "C189", "title": "A washing step pumps to the object until its volume has passed", "statement": "A step which pumps to the object ends exactly in the cycle in which the counter has reached the volume of the step and, in a step with an additional rinse of an object with a signal for it, the object has signalled now or earlier in the step that the wash may go on; stops in between change nothing.", "quantifier": "every step, program, volume, history of counts, signals, stops and resumptions", "why_tests_cant": "Whether a step may end depends on what was signalled at any earlier time of the step.", "anchors": ["PAC/common/cip_tech_def.cpp: cipline_tech_object::_ToObject", "PAC/common/cip_tech_def.cpp: cipline_tech_object::_InitStep"]}
{"id": "C190", "title": "A washing step pumps from the object until the volume has passed, the return flows and its concentration is right", "statement": "A step which pumps from the object ends exactly in the cycle in which its volume has passed, flow was seen in the return, then or in an earlier cycle after the volume has passed, and the concentration fits. If there was no flow, the error 'no return' comes exactly when the time for it is over since the volume has passed or since the resumption; the error of the concentration comes exactly when it has not fitted for twice the time for it.", "quantifier": "every volume and times of the parameters, every history of counts, flow, concentrations, stops and resumptions", "why_tests_cant": "Two timers and a flag which live over cycles and stops; the order of events matters.", "anchors": ["PAC/common/cip_tech_def.cpp: cipline_tech_object::_FromObject", "PAC/common/cip_tech_def.cpp: cipline_tech_object::_InitFromObject"]}
{"id": "C191", "title": "Emptying the object ends when nothing comes any more, and within its limit", "statement": "Emptying the object ends exactly when its 'object empty' device says so; without such a device when the level switch of the return has been dry for the time for it, or there has been no flow for this time after flow, or half the limit is over in the first emptying or with no flow at all, or the limit is over; stops do not count. It always ends within the limit.", "quantifier": "every limit and time, every history of flow, level switch, device, stops and resumptions", "why_tests_cant": "Four conditions with three timers over any history.", "anchors": ["PAC/common/cip_tech_def.cpp: cipline_tech_object::_OporCIP", "PAC/common/cip_tech_def.cpp: cipline_tech_object::_InitOporCIP"]}
{"id": "C192", "title": "The small tank is filled and emptied by the litres since its level", "statement": "Filling the small tank ends exactly when the litres counted since its middle level was reached are the volume for it or the upper level is reached; emptying it ends exactly when the litres counted since its lower level was lost are the volume for it or the time without this level, not counting stops, is over. A tank that is not filled (emptied) does not pass for filled (emptied).", "quantifier": "every volume and time, every history of counts, levels, stops and resumptions", "why_tests_cant": "The counter is paused and continued by levels and stops in any order.", "anchors": ["PAC/common/cip_tech_def.cpp: cipline_tech_object::_FillCirc", "PAC/common/cip_tech_def.cpp: cipline_tech_object::_OporCirc", "PAC/common/cip_tech_def.cpp: cipline_tech_object::_InitFilCirc", "PAC/common/cip_tech_def.cpp: cipline_tech_object::_InitOporCirc"]}
{"id": "C193", "title": "Disinfectant is dosed for its time; the rinse after preparing a solution lasts until the concentration stays low", "statement": "Dosing disinfectant ends exactly when its time (whole seconds) is over, not counting stops. The rinse after the preparation of a solution ends exactly when the concentration has been low for longer than the time for it since it was high for the last time, not counting stops. Both for steps of less than 49 days.", "quantifier": "every time, every history of cycles, concentrations, stops and resumptions", "why_tests_cant": "The timer is reset, paused and continued in any order over an unbounded history.", "anchors": ["PAC/common/cip_tech_def.cpp: cipline_tech_object::_DoseRR", "PAC/common/cip_tech_def.cpp: cipline_tech_object::_InitDoseRR", "PAC/common/cip_tech_def.cpp: cipline_tech_object::OpolRR", "PAC/common/cip_tech_def.cpp: cipline_tech_object::InitOpolRR"]}
{"id": "C194", "title": "An operation is switched on only with its signals", "statement": "The check before an operation is switched on passes exactly when each group for controlling outputs by inputs, in every step of the state 'run' and in the operation itself, begins with an input of an admitted kind and all signals required by the operation are active; otherwise it names a device of which the message is true. An operation which is off and is told to switch on is on afterwards only if the check passes; if nothing else refuses, the code is 1101 and nothing has changed.", "quantifier": "every list of steps, every filling of their actions with devices, every state of the devices, every object and command", "why_tests_cant": "The groups are filled in any order and the check runs over all of them; the command meets any state of the object.", "anchors": ["PAC/common/operation_mngr.cpp: operation_state::check_on", "PAC/common/operation_mngr.cpp: step::check", "PAC/common/operation_mngr.cpp: required_DI_action::check", "PAC/common/operation_mngr.cpp: DI_DO_action::check", "PAC/common/operation_mngr.cpp: AI_AO_action::check", "PAC/common/tech_def.cpp: tech_object::check_on_mode", "PAC/common/tech_def.cpp: tech_object::lua_check_on_mode"]}
{"id": "C195", "title": "A command of a signal column switches its light and no other", "statement": "After any history of commands to a signal column, each output is that of the light which the configured sequence of signals puts there, driven by the commands for that light only; an output without a light is never on. A light whose last order is 'on' or 'off' is lit or dark until its next order and is published so; one which is ordered to blink again and again is lit in the first half of the period; the column is on exactly when the last order of some light is not 'off'; numbers which are no commands change nothing.", "quantifier": "every sequence of signals, every history of commands with their times", "why_tests_cant": "The commands come in any order from the server and the control program, the sequence is any text; tests send a few commands to one column.", "anchors": ["PAC/common/device/base.cpp: signal_column::direct_set_state", "PAC/common/device/base.cpp: signal_column::turn_off", "PAC/common/device/base.cpp: signal_column::turn_on", "PAC/common/device/base.cpp: signal_column::blink", "PAC/common/device/base.cpp: signal_column::save_device_ex", "PAC/common/device/base.cpp: signal_column::get_state", "PAC/common/device/device.cpp: signal_column_iolink::set_string_property", "PAC/common/device/device.cpp: signal_column_iolink::process_DO", "PAC/common/device/device.cpp: signal_column_discrete"]}
{"id": "C196", "title": "The OPC UA server shows the devices of the project while it is switched on", "statement": "Whenever clients of the OPC UA server are answered, state and value of every device are read under its name and no other variables are shown under such names. While its starts succeed, clients are answered exactly when the last of 'on', 'off' and 'reset of the parameters' was 'on', also after new starts of the controller, and the published parameter says so; the running time and the version of the controller are shown too.", "quantifier": "every list of device names, every history of commands, resets of parameters and starts of the controller, every outcome of the starts of the server", "why_tests_cant": "The server is switched on and off by an operator at any time over years; tests start it once.", "anchors": ["PAC/common/OPCUAServer.cpp: OPCUA_server::init", "PAC/common/OPCUAServer.cpp: OPCUA_server::create_dev_objects", "PAC/common/OPCUAServer.cpp: OPCUA_server::create_PAC_info", "PAC/common/OPCUAServer.cpp: OPCUA_server::start", "PAC/common/OPCUAServer.cpp: OPCUA_server::shutdown", "PAC/common/OPCUAServer.cpp: OPCUA_server::evaluate", "PAC/common/OPCUAServer.h: OPCUA_server::init_all_and_start", "PAC/common/PAC_info.cpp: PAC_info::set_cmd", "PAC/common/PAC_info.cpp: PAC_info::reset_params", "PAC_control_projects/main_control_prg/main.cpp: main"]}
{"id": "C197", "title": "The Modbus client returns the answer to the request", "statement": "A call of the Modbus client that waits for its answer and returns 1 has put into the buffer what the device sent for this very request: not the answer to an earlier request, nor bytes of an earlier connection. After a lost connection the client starts afresh.", "quantifier": "for every history of requests, failures of connecting, sending and receiving, and every way in which the bytes of the answers arrive", "why_tests_cant": "Tests run against a local server whose answers always arrive in one piece; the failure needs an answer that is split by the network and shows only in later requests.", "anchors": ["PAC/linux/l_tcp_client.cpp: linux_tcp_client::Communicate, Connect, Disconnect", "PAC/linux/l_tcp_cmctr.cpp: sendall, recvtimeout", "PAC/common/modbus_client.cpp: read_discrete_inputs ... write_multiple_registers"]}
{"id": "C198", "title": "The recipe chosen for a washing medium is the one in use", "statement": "When the number of one of the ten recipes of caustic or acid is written to the parameter with the choice, the next cycle of line 1 brings all nine values of this recipe into the parameters of the station, shows its name, and changes nothing else. Another number is refused. What is in use is always what the chosen recipe holds.", "quantifier": "for every content of the recipe files and of the parameters at the start, every history of values, orders and choices for both media, and every choice after it", "why_tests_cant": "A test tries a few choices; that nothing else changes in between, that the other medium is never touched, and that later edits of the recipe reach the station are statements about all histories.", "anchors": ["PAC/common/cip_tech_def.cpp: cipline_tech_object::EvalRecipes, initline, set_cmd (PAR_MAIN)", "PAC/common/mcaRec.cpp: TMediumRecipeManager::LoadRecipeToParams, LoadRecipeName"]}
{"id": "C199", "title": "Values, copies and orders of the recipes of the media", "statement": "A value of the current recipe that is set is read back, and no other value changes. The orders of a recipe (defaults, copy, paste, clear) do what they are called, to the current recipe of this medium only, once, and within one cycle.", "quantifier": "for every history from any content of the files, both media, every recipe and every number of a value", "why_tests_cant": "The memory of all recipes is one block and the copy is shared; that no other recipe is hit has to hold for all positions and numbers.", "anchors": ["PAC/common/mcaRec.cpp: TMediumRecipeManager::setValue, EvalRecipe, CopyRecipe, PasteRecipe, NullifyRecipe, ResetRecipeToDefault, NextRecipe, PrevRecipe", "PAC/common/cip_tech_def.cpp: cipline_tech_object::set_cmd (CAUSTIC_PAR, ACID_PAR)"]}
{"id": "C200", "title": "Reading a text file line by line", "statement": "A file that is opened is read line by line from its beginning: every call for the next line delivers it and moves on, looking at the next line delivers it and does not move, and at the end an empty line is delivered. Reading in blocks delivers the bytes of the file in order. Other files are not touched. A line that is too long, a file that cannot be opened and an object that is not open are answered without harm.", "quantifier": "for every content of the file, every division into lines and every sequence of calls", "why_tests_cant": "A test reads a few short lines; the position after looking ahead and the end of the buffer depend on the length of each line and on its bytes.", "anchors": ["PAC/linux/l_mem.cpp: data_file::file_open, file_read, fget_line, pfget_line, file_close", "PAC/common/base_mem.h: file"]}
{"id": "C201", "title": "A command of the server sets the property that it names", "statement": "A command that names a property the device publishes, with a value that makes sense for it, sets this property of the device and nothing else and is answered with 0. After any sequence of commands each property has the last value sent. A name that is not a property is refused and changes nothing, and a value outside the range of the property has no undefined effect.", "quantifier": "for every class of devices with own commands, every name, every value and every sequence of commands", "why_tests_cant": "The classes look at single letters of the name; which names fall into which branch is a statement about all strings.", "anchors": ["PAC/common/device/base.cpp: device::set_cmd, virtual_counter::set_cmd, par_device::set_par_by_name", "PAC/common/device/device.cpp: camera::set_cmd, base_counter::set_cmd, counter_f::set_cmd, counter_iolink::set_cmd, analog_io_device::set_cmd, motor_altivar::set_cmd", "PAC/common/device/valve.cpp: valve::set_cmd, valve_iolink_mix_proof::set_cmd, analog_valve_iolink::set_cmd"]}
{"id": "C202", "title": "Loading, starting and stopping on a PLCnext controller", "statement": "On a PLCnext controller the project is loaded once; the control works only with a completely loaded project. After Stop nothing is controlled until Start, and after Start every turn of the program is a cycle of the control until Stop. The OPC UA server answers in every cycle while it is switched on.", "quantifier": "for every history of Start, Stop, calls of the program and turns of its loop, with Start and Stop at any moment, and every result of loading", "why_tests_cant": "Start and Stop come from another thread at any moment, also while the project is loaded; tests of the project do not run as a component of a controller.", "anchors": ["PAC/linux/PAC_PLCnext/PtusaPLCnextEngineer/PtusaMainPrg.cpp: PtusaMainPrg::Execute", "PAC/linux/PAC_PLCnext/PtusaPLCnextEngineer/PtusaMainCmpnt.hpp: PtusaMainCmpnt::Start, Stop"]}
{"id": "C203", "title": "The recipe loaded last is known after a restart", "statement": "Each technological object shows the name and the number of the recipe loaded last into it. They are kept in a file: after a restart of the controller every object shows the same recipe as before, a new object shows that none was loaded, and the file is not written more often than every ten seconds.", "quantifier": "every number of objects and adapters, every history of loadings, changes of the lists of recipes and evaluations, every contents of the file at the start, every moment of the restart", "why_tests_cant": "The file is written with a delay which depends on what else has to be saved; tests load one recipe and call the two functions directly.", "anchors": ["PAC/common/params_recipe_manager.cpp: ParamsRecipeManager::saveTechObjects, loadTechObjects, evaluate, ParamsRecipeAdapter::loadParams", "PAC/common/tech_def.h: lastLoadedRecipeName, lastLoadedRecipeNmr"]}
{"id": "C204", "title": "The status lamp blinks in red with errors and in green without", "statement": "From the first call on the status lamp is lit and put out in turns, more than half a second apart, with the first call of the main loop after that; it is lit in red if there are errors and in green if there are none, so that a second after a change of the errors what is seen is right.", "quantifier": "every sequence of calls with a clock that does not go back, every history of the errors", "why_tests_cant": "The colour depends on the order of the changes of the errors and of the phases of the lamp.", "anchors": ["PAC/common/PAC_err.cpp: PAC_critical_errors_manager::show_errors", "PAC/linux/PAC_PFC200/led_PFC200.cpp: led_PFC200::on, off"]}
{"id": "C205", "title": "Changed recipes and lists of recipes reach their files", "statement": "Every change of a recipe and every change of the marks of the enabled recipes is written to the file of its storage or adapter, one file at a time and not more often than every ten seconds; after a restart every storage and every adapter contains what it contained before, new recipes being enabled.", "quantifier": "every number of storages and adapters, every history of changes, reloads and evaluations, every list of marks, every size of the project at the restart", "why_tests_cant": "The order of saving depends on all changes and on the times of the evaluations; tests save one item.", "anchors": ["PAC/common/params_recipe_manager.cpp: ParamsRecipeManager::evaluate, ParamsRecipeAdapter::serialize, deserialize, setActiveState"]}
{"id": "C206", "title": "An action has the devices, parameters and targets it was given", "statement": "After any sequence of configuring calls each subgroup of an action contains exactly the devices put there since the devices were last taken away, in their order; the loops of the actions never leave their lists; parameters, targets of jumps and the switching-off flag are those given last, with neutral values in gaps; a property the action does not know is refused and changes nothing; seats are washed in the groups and order given.", "quantifier": "every kind of action, every number of subgroups, every sequence of calls of the configuration with any names, indices and values", "why_tests_cant": "The shape of the nested lists depends on the order of all calls; tests configure a few devices in order.", "anchors": ["PAC/common/operation_mngr.cpp: action::add_dev, action::clear_dev, jump_if_action::set_int_property, get_int_property, enable_step_by_signal::set_bool_property, open_seat_action::add_dev", "PAC/common/operation_mngr.h: action::set_param_idx"]}
{"id": "C207", "title": "The objects of a project are evaluated each once, in their order, and found by their numbers", "statement": "Every cycle evaluates all objects of the project once in the order they were added and then the project's own function, if there is one. Objects are numbered from one in that order, no two have the same number and each is found by its number. The search for an object with an active operation finds the lowest number of the range. Additional steps are switched exactly for existing operations.", "quantifier": "every history of adding objects, defining functions and cycles; every range and set of active operations; every number of operation, step and command", "why_tests_cant": "All orders of events and all ranges, also empty ones and ones beyond the last object.", "anchors": ["PAC/common/tech_def.cpp: tech_object_manager::evaluate, add_tech_object, get_object_with_active_mode, get_tech_objects, tech_object::set_extra_step"]}
{"id": "C208", "title": "Parameters have the values of the project after a reset", "statement": "After a reset of the parameters, by command or because the project has another number of them, every parameter has the last value the functions of the project give it, or 0, and nothing remains of the old values; parameters that are set keep the value, saved ones also over restarts.", "quantifier": "every object, every list of assignments of every function of the project, every history of starts, resets and settings, every parameter", "why_tests_cant": "The values depend on the order in which all functions run after a reset and at each start.", "anchors": ["PAC/common/param_ex.cpp: params_manager::reset_to_default, final_init", "PAC/common/tech_def.cpp: tech_object::lua_init_params, lua_init_runtime_params", "PAC/common/cip_tech_def.cpp: cipline_tech_object::initline, init_params"]}
{"id": "C209", "title": "The checks among washing lines see every line of the station", "statement": "Every check that compares a washing line with the others (conflicting valves, exclusion of cleaning of the station, loading of statistics) looks at every washing line that was set up, each exactly once, and at nothing else.", "quantifier": "Every list of washing lines and every order in which they are set up, with any numbers.", "why_tests_cant": "The list is filled under the number given in the project but counted separately; tests use one line numbered 1.", "anchors": ["PAC/common/cip_tech_def.cpp: cipline_tech_object::initline, Mdls, MdlsCNT, ~cipline_tech_object"]}
{"id": "C210", "title": "The PROFIBUS slave keeps to the protocol of the controller's library", "statement": "The controller exchanges data only with the PROFIBUS slave it has found, opened and configured with the address and sizes of the project; it triggers the watchdog only after starting it; a start reports success exactly when every step succeeded and stops at the first step that fails; at the end the device is closed and the interface is left once.", "quantifier": "Every library behaviour (result of every call), every list of devices, every configuration and any number of cycles.", "why_tests_cant": "The library exists only on the controller; faults at each of its calls cannot be provoked in tests.", "anchors": ["PAC/linux/PAC_PFC200/profibus_slave_PFC200.cpp: init, get_device_id, open_device, configure_device, eval, close, close_device, release_ADI", "PAC_control_projects/main_control_prg/main.cpp"]}
{"id": "C211", "title": "Setting the value of a regulator reaches its actuators and comes to an end", "statement": "Setting the value of a running regulator comes to an end; every device down the chain of actuators that is not in manual mode is switched on and given the output of the one before, and nothing else changes. A regulator that is off passes nothing on and switches its actuator off. A regulator is never its own actuator.", "quantifier": "Every network of regulators and devices, every history of assigning actuators, every value, whatever the regulators compute.", "why_tests_cant": "Networks of regulators come from the project; tests connect one regulator to one stub.", "anchors": ["PAC/common/PID.cpp: PID::set_string_property, direct_set_value, direct_on, direct_off", "PAC/common/device/base.cpp: device::on, off, set_value"]}
{"id": "C212", "title": "Objects held by owning pointers are deleted exactly once", "statement": "An object handed over to an owning pointer is deleted exactly once, when the pointer is freed, destroyed or assigned another object; until then it stays alive and the pointer shows it, afterwards no pointer shows it.", "quantifier": "Every history of operations on any number of owning pointers.", "why_tests_cant": "Double deletion shows only for particular orders of assigning, copying and destroying, and then as memory corruption elsewhere.", "anchors": ["common/util/smart_ptr.h: auto_smart_ptr, smart_ptr"]}
{"id": "C213", "title": "What is stored in non-volatile memory is read back after any restarts", "statement": "Whatever the platform, each byte read from non-volatile memory is the last byte stored at that address, and zero (or what the chip held) where nothing was stored, through any number of starts and stops.", "quantifier": "Every platform driver, every history of starts, stops and writes, every address and length.", "why_tests_cant": "Depends on the state the previous process left on the medium, on the answers of the operating system and on what the caller's buffer held.", "anchors": ["linux/l_mem.cpp: SRAM", "win/w_mem.cpp: SRAM", "linux/PAC_PFC200/mem_PFC200.cpp: eeprom_PFC200", "linux/PAC_PLCnext/mem_PLCnext.cpp: eeprom_PLCnext", "common/sys/base_mem.cpp: NV_memory_manager::NV_memory_manager, init_ex"]}
{"id": "C214", "title": "The article number decides how the data of a sensor are read", "statement": "An IO-Link pressure, level or switch sensor is read in the layout and with the scale of the article it was last given; an article the program does not know gives the default reading.", "quantifier": "Every text as article, every history of texts, every data image.", "why_tests_cant": "Texts are unbounded, and the outcome depends on the earlier articles of the same device.", "anchors": ["common/device/base.cpp: device::set_article", "common/device/device.cpp: pressure_e_iolink::read_article, pressure_e_iolink::set_article, level_e_iolink::set_article, level_s_iolink::set_article"]}
{"id": "C215", "title": "A Windows client holds exactly the socket of its connection", "statement": "A client holds one socket while it is connecting or connected and none otherwise; an exchange that brings nothing, also because the other side closed the connection, ends it, so that the next exchange connects anew; a destroyed client leaves nothing open.", "quantifier": "Every history of exchanges, asynchronous sends and receives, polls and disconnects, every answer of the operating system to every call.", "why_tests_cant": "Depends on the order of failures in the operating system over the whole life of the client; leaks show only after many failures.", "anchors": ["win/w_tcp_client.cpp: win_tcp_client::Communicate, Connect, AsyncConnect, Disconnect, AsyncSend, AsyncRecive, get_async_result, ~win_tcp_client", "common/tcp_client.cpp: tcp_client::checkConnection"]}
{"id": "C216", "title": "The Windows server keeps its table of sockets in order and never waits for nobody", "statement": "Through connections, broken connections and failures of the network the server lists every open socket exactly once, closes what it drops, sets the network up again after a failure, and no call waits for a connection that nobody made.", "quantifier": "Every history of calls, every answer of the operating system: sockets with data, clients waiting, outcome of every exchange, failures while the network is set up.", "why_tests_cant": "Depends on the order of failures, on when clients connect and on which numbers the operating system gives to sockets.", "anchors": ["win/w_tcp_cmctr.cpp: tcp_communicator_win::net_init, killsockets, net_terminate, evaluate, do_echo"]}
{"id": "C217", "title": "The server reads the recipes from their text", "statement": "From the text of the recipes the server reads, adapter by adapter, whether the chosen recipe is active, its number, its name, the lists of recipes and the exact parameters, whatever the buffer held before.", "quantifier": "Every list of adapters, every name, list and parameter, every former content of the buffer and every former knowledge of the server.", "why_tests_cant": "Names, lists and parameters are unbounded; whether old bytes of the buffer show depends on the lengths and on earlier answers.", "anchors": ["common/params_recipe_manager.cpp: ParamsRecipeManager::save_device", "common/device/base.h: MAX_COPY_SIZE"]}
{"id": "C218", "title": "Reading the statistics again keeps each line with its object", "statement": "After the command to read the statistics of washed objects again, each line shows what the file has of the object it has – the car, or the object of the chosen recipe –, the wash is recorded for that object, and a start is refused if the object needs a wash with acid.", "quantifier": "Every history of washes, restarts and commands, every number and kind of lines, every line that gets the command, every content of the file.", "why_tests_cant": "The result depends on the whole history of the file and on which line is in which state at the moment of the command.", "anchors": ["common/cip_tech_def.cpp: cipline_tech_object::EvalCommands (MCMD_RELOAD_WASH_STATS)", "common/cip_stats.cpp: cip_stats::stats_if_exists, clear, loadFromFile"]}
{"id": "C219", "title": "The messages of an object say what happened", "statement": "A message of an object is a text in UTF-8 that names the object, the operation or operations and the reason; and the object says that it has an alarm from the moment one is set until it is acknowledged.", "quantifier": "Every object, operation, reason and kind of message, every history of messages and acknowledgements.", "why_tests_cant": "Names and reasons are of any length; whether an alarm is kept depends on how many messages wait at that moment.", "anchors": ["common/tech_def.cpp: tech_object::set_err_msg, tech_object::is_any_error", "common/PAC-driver/g_errors.cpp: tech_obj_error::set_cmd, tech_obj_error::get_priority"]}
{"id": "C220", "title": "Each washing line has its own devices", "statement": "When a washing line is set up it gets, for each valve, motor and sensor of its plan, the device of the project that has the name made of the number of the line and the place; so no device is used by two lines or at two places of a line, and the tanks and pumps of the station are the same for all lines.", "quantifier": "Every project (any set of names), every number of a line, every pair of lines in the old or the new form of names.", "why_tests_cant": "Names are put together from numbers of any length in two forms; that no two of them coincide is a statement about all pairs of lines and places.", "anchors": ["PAC/common/cip_tech_def.cpp: cipline_tech_object::initline"]}
{"id": "C221", "title": "The panel sees the state of each washing line and commands it", "statement": "Whichever registers a panel reads, those of the step, the state, the temperature of the return and the number of the station are those of the line they belong to, and each state can be told from every other; a command that the panel writes reaches its line and no other, and is carried out.", "quantifier": "Every station, every block of registers that is read or written, every state, every row of commands.", "why_tests_cant": "A block starts anywhere and a temperature takes two registers, so every alignment counts; faults are any numbers a project gives; commands come between any two passes.", "anchors": ["PAC/common/modbus_serv.cpp: ModbusServ::ModbusService", "PAC/common/cip_tech_def.cpp: cipline_tech_object::SetCommand, EvalCipInProgress, EvalBlock"]}
{"id": "C222", "title": "Washes are counted for the cars that are washed", "statement": "In a car wash each circulation with caustic adds one to the count of every car at a place that is switched on, each circulation with acid sets their counts to zero, and no other car's count changes; the switches, and the first number at the panel, cannot be changed during a wash.", "quantifier": "Every history of numbers set at the panel and by the server, switches, starts, circulations, ends and resets.", "why_tests_cant": "The count decides whether an acid wash is demanded; which car it goes to depends on everything entered before and during the wash.", "anchors": ["PAC/common/cip_tech_def.cpp: cipline_tech_object::EvalCommands, setSwitch, set_cmd, resetCarNumber", "PAC/common/modbus_serv.cpp: ModbusServ::ModbusService", "PAC/common/cip_stats.cpp: cip_stats::get_obj_stats, stats_if_exists"]}
{"id": "C223", "title": "Texts of washing lines reach the panel", "statement": "Whichever block of registers a panel reads from the group of texts, every car number, date of washing and program name whose first register is in the block is there character by character with a closing zero, and so are the count of caustic washes and the time of the controller; nothing else of the answer is left over from before.", "quantifier": "Every station, all texts, every block of registers and every former content of the buffer.", "why_tests_cant": "The loop leaps over registers by the lengths of the texts; where it lands depends on the address the panel begins at, and wrong leaps lose or mix texts only for some blocks.", "anchors": ["PAC/common/modbus_serv.cpp: ModbusServ::ModbusService (C_OTHER), PackString, Utf8toUnicode", "PAC/common/cip_tech_def.cpp: cipline_tech_object::DateToChar"]}
{"id": "C224", "title": "Parameters of a washing station keep what the panel wrote", "statement": "After every sequence of requests of panels each parameter of the station has the value last written to it, as floats in registers or as a coil, and the others are unchanged; what a panel reads back, as floats or as coils, are these values.", "quantifier": "Every number of parameters, all values, every sequence of writing and reading requests for any number of parameters from any one on.", "why_tests_cant": "Registers, coils and parameters have different numberings; an error by one at an end of the range shows only for the first or last parameter.", "anchors": ["PAC/common/modbus_serv.cpp: ModbusServ::ModbusService (C_MSA_STATIONPARAMS)", "PAC/common/cip_tech_def.cpp: cipline_tech_object::get_station_par, set_station_par", "PAC/common/param_ex.h: saved_params::save"]}
{"id": "C225", "title": "The journal holds every message, and only what was meant", "statement": "Every text the program reports is in the journal unchanged, on one line in the system's journal, whatever characters it has and however long it is up to the size of the buffer; a file that is missing or of a wrong version is named there and in the answer to the server.", "quantifier": "All texts, arguments and priorities, all commands of the server, all contents of a script's first line.", "why_tests_cant": "Which characters and lengths appear depends on names given in a project and sent by a server; a text used as a format goes wrong only with a percent sign.", "anchors": ["PAC/common/log.cpp: i_log::write_log, debug, info, notice, warning, error, critical, alert, emergency", "PAC/linux/l_log.h: l_log::write_log", "common/lua_manager.cpp: check_file, lua_manager::reload_script", "PAC/common/params_recipe_manager.cpp: ParamsRecipeManager::parseDriverCmd"]}
{"id": "C226", "title": "The return pump does not run dry and obeys the operator", "statement": "The return pump of a washing line is off whenever there has been no liquid before it for longer than the delay, and otherwise runs as the step wants; what the operator commands holds until the step ends; after a wash and in a pause it is off; the panel shows whether it runs.", "quantifier": "All histories of steps, cycles, commands of the operator, pauses and stops, all readings of the sensor, times and delays.", "why_tests_cant": "The protection, the operator's override and the steps act on the same pump; whether it runs dry depends on the order of a command and the end of the liquid.", "anchors": ["PAC/common/cip_tech_def.cpp: cipline_tech_object::SetRet, ForceRet, GetRetState, HasRet, _InitStep, _DoStep, _StopDev, EvalCommands", "PAC/common/modbus_serv.cpp: ModbusServ::ModbusService"]}
{"id": "C227", "title": "The outputs are those of the current step", "statement": "At the end of every pass of the main loop the outputs sent to the couplers are those the current step of an operation and its state as a whole list to be on, through every change of steps by time, condition or command, and none of them after the state is left.", "quantifier": "All configurations of steps and devices, all histories of entering, evaluating, changing and leaving a state, all passes of the main loop before.", "why_tests_cant": "It spans steps, actions, devices and the exchange with the couplers; a device that is off for a single pass is seen only if the change of steps, the lists and the moment of the message meet.", "anchors": ["PAC/common/operation_mngr.cpp: operation_state::evaluate, to_step, finalize, step::evaluate, step::finalize, on_action::evaluate, off_action::evaluate, action::finalize", "PAC_control_projects/main_control_prg/main.cpp: main"]}
{"id": "C228", "title": "A parallel step drives its devices as long as it is active", "statement": "The devices of a step that runs beside the main step of an operation are switched on exactly as long as the step is among the active ones, however it was switched on and off and whatever the main steps do; a step that was refused does not drive anything.", "quantifier": "All configurations of steps and devices, all histories of entering, evaluating, changing and leaving a state and of switching parallel steps on, off and over.", "why_tests_cant": "Parallel steps are kept in a list that commands, signals and the main step change within a pass; the order of their calls in one pass decides what the devices do.", "anchors": ["PAC/common/operation_mngr.cpp: operation_state::evaluate, on_extra_step, off_extra_step, switch_active_extra_step, to_step, finalize, step::evaluate, step::finalize"]}
{"id": "C229", "title": "An operation goes on after a pause where it was", "statement": "A paused operation that is started again is in the step it was paused in, with the same parallel steps, and its steps have worked as long as when it was paused; its working time is the time it spent running since its start, over any number of pauses and when it has been stopped.", "quantifier": "All configurations of steps, all histories of commands, evaluations and requests for steps before and during the pause, all times between them.", "why_tests_cant": "What is kept over a pause is spread over five times and two lists of three classes, and is changed by every call in between; tests pause an operation once, in its first step, without parallel steps and with a clock that stands still.", "anchors": ["PAC/common/operation_mngr.cpp: operation::pause, start, to_run_state, stop, evaluation_time, active_step_evaluation_time, operation_state::finalize, add_dx_step_time, save, load, step::get_eval_time"]}
{"id": "C230", "title": "A step with a duration lasts its duration", "statement": "A step of an operation that has a duration begins at 0 when it is entered and ends by itself in the first pass that finds that it has worked longer than its duration and in none before, pauses not counted; then the operation goes to the step configured to follow, or is switched off if there is none.", "quantifier": "All configurations of steps and durations, all histories before and during the step with any number of pauses and parallel steps, all times between calls.", "why_tests_cant": "The end of a step depends on every pass, pause and call since it was entered, and on times left over in the step from earlier visits; a test looks at a few moments of one history.", "anchors": ["PAC/common/operation_mngr.cpp: operation_state::evaluate, to_step, finalize, add_dx_step_time, step::init, finalize, get_eval_time, operation::pause, start, to_run_state"]}
{"id": "C231", "title": "A step that lasts longer than its maximal time is reported and the operation pauses", "statement": "For a step with a maximal time, counted from the moment the step was begun or the operation went on with it after a pause, the first pass of the object that finds this time reached reports the step and the time and pauses the operation; earlier passes, passes without a maximal time and passes in which the operation goes to another step report nothing.", "quantifier": "all operations with any states and steps, all histories of calls at any times, all answers of the outside world, all parameters and changes of them, with and without debug output", "why_tests_cant": "The time depends on the whole history of begins, pauses and resumptions, and on what the pass reads before and after a change of the step.", "anchors": ["PAC/common/operation_mngr.cpp: operation_state::check_max_step_time, operation_state::evaluate, operation_state::to_step, step::get_latest_eval_time", "PAC/common/tech_def.cpp: tech_object::evaluate"]}
{"id": "C232", "title": "Without input/output modules valves follow their commands and touch no output", "statement": "A controller started without its nodes simulates its valves: after any history each valve reports the state the last command set (a valve opened by the program closes with the usual delay), whatever its inputs are and whatever the other valves do; the feedbacks of a valve are what the two commands by name have set; no output changes. With its nodes, the feedbacks are the inputs read last and commands by name do not change them.", "quantifier": "all sets of valves of the classes with discrete channels, of bottom mix-proof valves and of valves of terminals, all histories of commands of the program and of the operator, of inputs, of commands by name and of evaluations at any times with any delays", "why_tests_cant": "Each class has its own functions, each with its own branch for the simulation, and all valves share one queue of delayed closings; tests try single commands of single classes.", "anchors": ["PAC/common/PAC_info.cpp: PAC_info::is_emulator", "PAC/common/device/valve.cpp: valve::get_state, valve::set_cmd, valve::get_valve_state, valve::get_on_fb_value, valve::get_off_fb_value, valve_mix_proof, valve_DO2_DI2_bistable, valve_bottom_mix_proof, valve_iol_terminal", "PAC/common/device/base.cpp: device::direct_on, device::direct_off, device::direct_set_state"]}
{"id": "C233", "title": "Simulated signals, sensors and motors", "statement": "On a controller without input/output modules a discrete or analog signal, a sensor, a motor or a circuit breaker shows the state that the last counting command set (on: 1, off: 0, a state: that state; a sensor starts with 1) and the value set last (0 after switching off; a random value when this is asked for). Commands of the program count outside manual mode only, those of the operator always. No output is touched. With modules the same on and off commands drive the discrete output, the same values the analog one.", "quantifier": "all histories of commands of the program and of the operator, changes of manual mode, switching of random values and input changes, for every class (all subtypes of motors), all times and values", "why_tests_cant": "Tests give a few commands to a few devices; state and value depend on the whole history and on which class keeps which field.", "anchors": ["PAC/common/device/device.cpp: DO1, DI1, motor, motor_altivar, circuit_breaker (direct_on, direct_off, direct_set_state, direct_set_value, get_state, get_value)", "PAC/common/device/base.cpp: device, AO1, AI1"]}
{"id": "C234", "title": "Virtual devices", "statement": "A virtual motor, virtual scales or any other virtual device shows, with and without input/output modules, the state that the last counting command set (on: 1, off: 0, reverse of a motor: 2, a state: that state) and the value set last (0 after switching off); commands of the program count outside manual mode only. It is active exactly when its state is not 0, the other way round after run-time parameter 1 was set to a non-zero value (not for motors and scales). The stand-in for an unknown device shows state 0 and value 0 whatever it is told.", "quantifier": "all histories of commands of the program and of the operator, changes of manual mode, reverses and run-time parameters, for every virtual class and the stand-in", "why_tests_cant": "Tests set a state and read it back; the result after any mixture of commands, manual mode and parameters is a statement about all histories.", "anchors": ["PAC/common/device/device.cpp: virtual_motor, virtual_wages, virtual_device, dev_stub", "PAC/common/device/base.cpp: i_motor::reverse, device::set_cmd"]}
{"id": "C235", "title": "Virtual valves", "statement": "After any history of any valves, a virtual valve shows its own state: opened by the program 1, closed (after the configured delay, when the program had opened it) 0, open seats 2 and 3, stopped 5, each below 5 plus 20 in manual mode with modules, 100 for a number without a meaning; without modules the bare number. Its feedbacks opened and closed agree with its state; without modules they are what was set by name last.", "quantifier": "all histories of opening, closing, immediate closing, states of the program and of the operator, manual mode, feedbacks set by name and cycles, of any number of virtual valves, all delays and times", "why_tests_cant": "Tests open and close one valve; delay, manual mode and commands of other valves interleave in any order.", "anchors": ["PAC/common/device/device.cpp: virtual_valve", "PAC/common/device/valve.cpp: valve::get_state, valve::get_valve_state, valve::set_cmd, valve::is_opened, valve::is_closed, valve::on, valve::off, valve::evaluate"]}
{"id": "C236", "title": "Simulated scales", "statement": "Without input/output modules scales show the weight set last (by the operator, or by the program outside manual mode) plus the correction; taring makes them show 0 and afterwards the difference to the weight at that time; the state commands set the state shown; switched off they show no weight.", "quantifier": "all histories of commands of the program and of the operator, manual mode, corrections, taring and cycles, for strain gauges, scales by RS232 and on the network", "why_tests_cant": "Tests set one weight and read it; taring, corrections, manual mode and cycles interleave in any order.", "anchors": ["PAC/common/device/device.cpp: wages, wages_RS232, wages_eth", "PAC/IoT/iot_wages_eth.cpp: set_wages_value, set_wages_state", "PAC/IoT/iot_base.cpp: i_iot_node::set_state"]}
{"id": "C237", "title": "Simulated power supply", "statement": "Without input/output modules a channel of the power supply is on exactly if the last command for it, or for the whole unit outside manual mode, was not 0; the unit shows 1 exactly if some channel is on, otherwise 0; the nominal current of a channel is the one set last; no command is undefined.", "quantifier": "all histories of switching the unit and its channels, of nominal currents, manual mode and cycles", "why_tests_cant": "Tests switch one channel at a time; commands to the unit, to channels and the manual mode interleave in any order, with any value.", "anchors": ["PAC/common/device/device.cpp: power_unit::set_cmd, power_unit::direct_on, power_unit::direct_off", "PAC/common/device/device.h: power_unit::process_data_in"]}
{"id": "C238", "title": "Simulated cameras", "statement": "Without input/output modules a camera shows the state of the last command (of the operator, or of the program outside manual mode), each of its results as it was simulated last, and whether it is ready as it was simulated last; a camera without a signal for readiness is ready from the start, the others are not.", "quantifier": "all histories of commands of the program and of the operator, simulated results and readiness, manual mode and cycles, for the three kinds of cameras", "why_tests_cant": "Tests set one result and read it; results, readiness, commands and manual mode interleave in any order.", "anchors": ["PAC/common/device/device.cpp: camera::set_cmd, camera::get_result, camera::direct_set_state, camera_DI3::get_result"]}
{"id": "C239", "title": "Simulated temperature sensors", "statement": "Without input/output modules a temperature sensor shows the temperature simulated last (by the operator, or by the program outside manual mode; 0 after switching off); if a fault is simulated (-1000) it shows the temperature set for faults and the state -1, as with modules; otherwise it shows the state commanded last.", "quantifier": "all histories of commands of the program and of the operator, parameters and manual mode, for resistance thermometers, analog sensors and sensors on IO-Link", "why_tests_cant": "Tests set one temperature; commands, parameters and manual mode interleave in any order.", "anchors": ["PAC/common/device/device.cpp: temperature_e, temperature_e_analog, temperature_e_iolink", "PAC/common/device/base.cpp: AI1"]}
{"id": "C240", "title": "Simulated flow", "statement": "Without input/output modules a counter shows the flow simulated last plus the correction, and the temperature simulated last, to within the resolution of the sensor (a pulse counter exactly, on IO-Link a hundredth and a tenth); every value can be simulated.", "quantifier": "all histories of simulated flows and temperatures, corrections and other events, for pulse counters and counters on IO-Link", "why_tests_cant": "Tests simulate one flow; which values survive the conversions to narrow fields depends on the value, and the order of the commands is open.", "anchors": ["PAC/common/device/device.cpp: counter_f::get_flow, counter_f::set_cmd, counter_iolink::set_cmd, counter_iolink::get_flow, counter_iolink::get_temperature", "PAC/common/device/device.h: counter_iolink"]}
