# Design of the formal model

The model is written in Lean 4 (module tree `lean/Verif/`).  One directory per
component of the controller runtime; in each directory

* `Model.lean`  – executable model, every definition cites file and lines of `/repo`;
* `Spec.lean`   – (where useful) a small specification that does not mention the model;
* `Lemmas.lean` – helper lemmas;
* `Props.lean`  – the property theorems only, named `Cnn_...`, each followed by an
  `example` showing that a concrete non-trivial case meets its hypotheses.

A theorem whose name ends in `_partial` proves only part of the English claim, and the
comment above it says what is missing.  A theorem `Cnn_..._violated` proves, with a
concrete witness, that the unchanged code does not satisfy the English claim at that
point; the disagreements are listed at the end of this file.

## Plan per property

| id | modelled | method |
|----|----------|--------|
| C01 | bump allocator of `NV_memory_manager`, sizes as 32-bit words | invariant over request histories; wrap-around witness |
| C02 | `memory_range::read/write/check_params` over a byte array, 32-bit words | frame theorem, round trip; wrap-around witness |
| C03 | `params_manager::get_params_data`, `saved_params` as offsets in one byte array | allocator invariant + frame theorem |
| C04 | parameter RAM image + EEPROM image, `save`, `save_all`, restart = `init` | refinement: EEPROM image = map of last saved values |
| C05 | sequence of NV writes of `final_init`, crash after any prefix | crash-prefix quantification; negation witness + crash-free partial |
| C06 | `parameters::operator[]`, shared stub element | refinement to a finite map; stub witness |
| C07 | `get_delta_millisec` on 64-bit words | bit-vector arithmetic; negation witness for wrap |
| C08, C09 | `PAC_critical_errors_manager` list + 16-bit id | refinement to a set over histories; counting |
| C10–C12 | `tech_dev_error`, `tech_obj_error`, `errors_manager` | state machine invariants over interleavings; order-dependence witness |
| C13, C14 | `PID::eval` over an arbitrary ordered field, on/off machine | clamp lemma for every input; protocol invariants |
| C15, C16 | `operation` state machine with per-state activity | transition relation, invariants over command histories |
| C17–C20, C23 | `tech_object::set_mode/get_mode`, restriction tables, availability counters; Lua checks are parameters (oracles) | invariants over histories; negation witnesses |
| C21 | `tech_object::set_cmd` decoding | arithmetic over all codes |
| C22 | message list of `tech_object` | invariant over histories |
| C24, C25 | `operation_state` steps and extra steps | invariants over histories |
| C26, C27 | `jump_if_action`, `enable_step_by_signal`, `DI_DO_action`, `AI_AO_action` | decision logic; last group decides; witnesses for empty groups and missing targets |
| C28–C31 | `ParamsRecipeStorage`, `ParamsRecipeAdapter` | refinement to a table, round trip over token streams |
| C32, C33 | `PAC_info::eval/set_cmd/reset_params`, restart; 32-bit fields against the 64-bit clock | invariant over evaluation histories; restart, zero-clock, fraction and 49.7-day witnesses |
| C34, C35 | `io_device::set_AO/get_AO/get_AI` for all supported module types, raw 16-bit values, exact arithmetic | range, end points, monotonicity and read-back error for all rationals and scales; NaN, degenerate scale, 554 low values and missing range checks as witnesses |
| C36 | `signal_column::show_*` and the lamps' blinking, all postings of a cycle | order-independence by maximum of importance over the list of postings; three order-dependent cases as witnesses |
| C37 | `virtual_counter` with float rounding of its value | sums over histories by induction, exact up to 2^24 units; absolute counter modulo 2^32; stuck counter and undefined conversion as witnesses |
| C38 | program and operator commands of `device`, `i_DO_device`, `i_AO_device` over an arbitrary class of devices | a history equals the history without the program commands given in manual mode, by induction; power units, seats of mix-proof valves and undefined conversions as witnesses |
| C39 | `open_seat_action` with 32-bit times | invariant over histories of init/evaluate/finalize and foreign commands; wrap witness |
| C40, C41 | `on/off/reverse`, `delay_on/off`, `wash_action` | folds over groups, last command decides |
| C42 | `action::check_devices` as offsets in the buffer | invariant while the text fits; overflow witness |
| C43 | finalisation of every kind of action | every finalisation only switches off |
| C44 | `check_max_step_time` | case analysis; swapped-argument witness |
| C45 | 32-bit `start_time` against the 64-bit clock | bit-vector arithmetic; 49.7-day witness |
| C46 | `ParamsRecipeManager::parseDriverCmd` after the regular expression matched | case analysis over all digit strings; crash witnesses |
| C47 | `valve::on/off/evaluate` for any set of valves with the common queue, over arbitrary classes; `valve_bottom_mix_proof` in full | invariant (a waiting valve is in the queue) and refinement to one valve without a queue, by induction on the history; universal counterexample for bottom mix-proof valves |
| C48 | all discrete classes of valves, `valve::get_state` with the clock read twice, `float` comparison with rounding, undefined conversions; IO-Link mix-proof valves | invariant: `start_switch_time` is the moment computed by a separate specification from the history, by induction; stability of a disagreement under repeated commands; universal counterexamples |
| C49 | the same, with `evaluate` of bistable valves | invariant over histories |
| C50 | bit and half-byte addressing of terminal and AS-i valves on images of any length; writing beyond is `none` | last-command characterisation by induction on the history; bit lemmas over all bytes |
| C51 | the same classes, `device::direct_set_state` | case analysis under the invariant of C49 |
| C52 | `timer` with 64-bit clock, `u_int` truncation of `is_time_up`, `timer_manager::operator[]` | counting of milliseconds as independent specification; invariant by induction on the history from its end |
| C53 | `DI1::get_state`, `level_s_iolink::get_state`; `time` of 32 bits, undefined cast of `P_DT` | invariant: no reading after the kept time shows the shown state; steadiness lemma |
| C54, C55 | `motor`: all sub types with discrete channels, frequency output | invariant of the outputs; the kept moment is that of the last renewing event, by induction |
| C56 | `threshold_regulator` with exact sums | case analysis, two-point lemma; induction for the off state |
| C57 | `calculate_quantity` and `evaluate_io` on 16-bit readings with rounded `float` sums | readings as totals modulo 2^16; induction on the history |
| C58 | `base_counter::get_state`, `counter_f::get_state`; 32-bit start time | invariant: all looks since the kept one were active and saw the same value |
| C59, C60 | `do_echo`, `_AknData`, `_AknOK`, `_ErrorAkn` over a memory of `BUFSIZE` bytes, services as arbitrary functions | symbolic evaluation for an arbitrary request; congruence of the whole exchange in the old memory |
| C61 | `sendall` over arbitrary results of `select` and `send` | induction on the results |
| C62 | table `sst`, scan with erase and push back, `select` set | invariant with multiplicities, by induction on events, cycles and calls |
| C63 | `net_init`, first exchange of an accepted socket | case analysis; induction on the number of tries |
| C64 | supervision at the head of `evaluate` | induction on the history |
| C65 | `write_devices_states_service` as service 1 of the communicator (C59): commands 102, 104, 106; texts of other components, Lua and zlib are parameters | symbolic evaluation of the whole exchange |
| C66 | static id of the list of devices, requests 100, 101 | induction on the history of requests |
| C67 | request 103: static ids, start delay, hidden alarms | induction: the id moves by the number of changes; no change means the same two ids |
| C68 | lengths of requests 100, 101 with the buffer of the communicator | arithmetic on lengths |
| C69 | `ModbusService` functions 1 and 3 for projects with Lua functions, as service 15 of the exchange (C59 model): one memory for request and reply | invariant of the bit and register loops (what a write leaves untouched), composed with the model of the exchange |
| C70 | functions 1, 3, 5, 16 and unknown ones, results 0 echoed by `do_echo` | symbolic evaluation for every program |
| C71 | functions 5 and 16, packing functions | symbolic evaluation; bit lemmas |
| C72 | `utf2cp1251.cpp`, text functions of the Modbus server, names of `set_cmd`; tables copied from the code, the code page and UTF-8 written separately in the specification | facts about one character over all 256 bytes by kernel evaluation, texts by induction |
| C73 | the choice of the line in `ModbusService` with `isMsa` (nothing else of that path) | case analysis and linear arithmetic |
| C74, C75 | one exchange with the common buffer of 262 bytes (`e_communicate`, what is not received stays in the buffer), WAGO and Phoenix messages, parts of 123 registers; the network is a parameter | answers as in the Modbus standard; induction on the parts and on histories; cut answers, many channels and short answers as universal counterexamples |
| C76, C77 | `e_communicate` without the buffer, `NODEENABLED`, the list of critical errors of C08 | invariant (alarm flag = entry in the list) over histories; pauses as powers of two by induction |
| C78 | status words as 32-bit number | bit lemmas |
| C79 | places of channels after any sequence of `init_channel` | last setting decides, by induction |
| C80, C81 | the vector of devices of the manager, the binary search between the first and the last device of a type, `add_io_device` with its table of classes, subtypes and stand-ins | invariant of registration in order of the names; binary search by strong induction; searches in other orders as counterexamples |
| C82 | the access functions with the static type of the cast and the class of the object | case analysis over the classes of the factory |
| C83 | `par_device`: names, values, saved values; the constructor calls of all classes | names computed for every class, then induction over histories of commands and assignments |
| C84 to C86 | the memory of recipes as bytes, addresses, values, names with their conversions, copy buffer, orders, list, file, cyclic call, start and end of the program | refinement: simulation of a table of recipes (names and values as functions) over all histories, with lemmas on reading and writing pieces of the memory; corollaries on single events; counterexamples for arbitrary states |
| C87 to C91 | washing lines of a station: commands, lock, start with its checks, order of the steps, errors, end of a wash, devices of the line and of the recipe, self-cleaning; what the steps do and when they end is arbitrary | classification of a cycle (17 kinds) proved once, then inductive invariants over all histories of all lines; for C89 induction over the history against an inductive specification of washes, with the finite tables of steps checked by the kernel; counterexamples as histories |
| C92 | the check of a running wash for faults with its two delays, its timer and the flags that block errors; the values of devices and parameters are arbitrary | case analysis of the check for single faults; inductive invariants over all histories of checks and starts of steps for the delays; counterexamples as histories |
| C93 | all requests of the Modbus client, built in its buffer of 256 bytes, with and without waiting | equality of the frame with the protocol's definition for every quantity that fits; universal counterexamples for the others |
| C94 | the answer in the buffer, the getters and setters, the registers of a write over histories of setters and calls | induction over histories with the invariant that the buffer holds the registers set; position arithmetic |
| C95 | bits of coils and registers, masks, the effect of a mask on a device | induction over the calls, bit by bit |
| C96 | the calls that do not wait over the connection, the communicator and the network, all nondeterministic | inductive invariant over all histories that ties the result field to the answer in the history |
| C97 | the steps of a drive's node over the Modbus client of C96: configuration, query, frames, commands from the device | inductive invariant over all histories: buffer content, step of the configuration and open exchange against what the history says was commanded and acknowledged |
| C98 | decoding of the status word and the values, the check of the connection, percent | the same invariant; state and values as functions of the history |
| C99 | statistics as arrays with all their places, the stream operations of C++, the map, the file, the events of the lines | refinement of a table with a copy on disk by an invariant over all histories; round trip and prefix lemmas for the format of the file by induction on the records |
| C100 | the same | an invariant of the table for every name; the refusal from the table |
| C101 | `siren_lights_manager::eval` with its blink machines, on top of the alarm list (C10, C11) and the critical errors (C08, C09); importance of objects with the shared static variable | exact description of one cycle from the flags of the alarm list; what the flags mean by induction on the list; invariant of the noted number of critical errors; induction on a steady stretch for the blinking |
| C102 | the Lua stack as C++ sees it and all call functions of `lua_manager`, `lua_check_function`; the script is an arbitrary function | exact result of `exec_lua_method_var` by the outcome of the call; induction on histories for the stack; unbounded leak by induction on the number of cycles |
| C103 | `error_trace`: sorted memory of texts, binary search, cut to 25 after 50 | invariant (sorted, at most 50, every remembered text is in the log) by induction on histories; refinement of the log to the list without repetitions |
| C104 | `evaluate_io`, `get_value`, `get_state` of the IO-Link sensors on the bytes of the image; the link state is a parameter | histories of answers and evaluations; the image after n evaluations by parity of n; universal counterexample for even n |
| C105 | `wages_pxc_axl` on the two registers of the image | parity of the number of evaluations, induction on the history for the correction after a tare |
| C106 | `wages_RS232`, `wages_eth` and `iot_wages_eth` on bytes; `atof` for decimal numbers without an exponent | `atof` of an encoded number is the number, by induction on its digits; concrete and universal counterexamples |
| C107 | `wages::get_weight` with time and voltages as parameters | invariant by induction on readings: with a filter of 1 or more the kept weight is whole |
| C108 | `calc_volume` of the level sensors (exact arithmetic), conversion to `int` with overflow as its own outcome | refinement to the volume of a cone and a cylinder, monotone by cases |
| C109 | `camera`, `camera_DI2`, `camera_DI3` outside the emulator | exact effect of a cycle on the output, induction on histories; universal counterexamples |
| C110 | `circuit_breaker` on the bytes of its process data | induction on histories with a good link; universal counterexamples |
| C111 | `power_unit` on the bytes of its process data, with the clock as a parameter | invariant (time of the last command), behaviour of the cycles around a command by induction on them |
| C112 | the text of the device list with all kinds of `save_device_ex`, the printing of numbers by `fmt`, and a reader for the part of Lua which the text uses | round trip by induction on digits, lists, fields and devices; universal counterexamples |
| C113 | the process data of the three IO-Link heads as bytes, the exchange of bytes, `out_info` as a pointer to stub, image or nothing, commands, `wink` | refinement of the output bits to the last command by induction on histories; decoding of every encoded report |
| C114 | `get_fb_state`, `get_state`, `start_switch_time` of the same valves | theorem over whole histories: first cycle, any events, command, no commands, report; universal counterexamples |
| C115 | valves, pumps and timers of all steps of a washing line: set-up and cycle of each step, sorting, self-cleaning, error stops, lock, commands | invariant per step (which valves the step may have open) by induction on histories |
| C116 | the same | the same invariant; universal counterexample |
| C117 | the same, `SortRR` with its delay | theorem about the last sorting in the visit of the step, by induction on histories; universal counterexamples |
| C118 | the same | invariant: `V00` is closed in steps that do not use it; case analysis of a cycle; universal counterexample |
| C119 | the same | case analysis of a cycle of a reachable line; universal counterexample |
| C120 | the same, `EvalPIDS` | case analysis of a cycle of a reachable line; counterexample |
| C121 | the same, `return_ok` | invariant about the visit of the step; case analysis of a cycle |
| C122 | `GetConc` over rationals | algebra |
| C123 | `save_device` of objects and parameters as text; a Lua reader (lexer, table constructors, assignments) as specification in `LuaText` | the text is a concatenation of parts whose reading composes; induction on lists; universal counterexamples |
| C124 | `save_params_as_Lua_str` | the same reader, for calls |
| C125 | the Lua function `params`, `set_param` | the exact effect by induction on the values; universal counterexamples |
| C126 | `set_cmd`, `reset_params`, `save_device` as text, read by the Lua reader of `LuaText` | the text is a concatenation of fields; induction on the commands against a specification that folds over the history |
| C127 | `reload_script`, `check_file` over an abstract file system | case analysis; universal counterexamples |
| C128 | `formProgramList`, `resetProgramList`, `addProgramToList`, loading a recipe, the rows for the panel (`CipProg`) | invariant by induction on the history: the rows are the first 16 of the list, the list is that of the mask and the program |
| C129 | `loadProgramFromList`, choosing a row at the panel, starting, resetting (`CipProg`) | invariant over name, program, option; case analysis on the numbers; universal counterexamples |
| C130 | the commands, `get_valve_state`, `get_fb_state` and `get_state` of seven classes of valves (`ValveMore`) | refinement: by induction the state agrees with a memory of what was told and since when; then the report is compared with it |
| C131 | the texts of critical errors, devices and messages and the answer (`AlarmText`) | the tokens of every piece are computed by induction over its texts; the pieces are composed to the table which the server reads |
| C132 | `get_alarm_descr` with the list of nodes and the size of its buffer (`AlarmText`) | computation of the text; the three numbers at its beginning are read back, which gives injectivity |
| C133 | the steps of the preparation of a solution with their timer, times and volumes (`CipDose`) | the equation of the mixture is solved; the timer is shown to be the running time of the pump by induction over the events |
| C134 | the counting of the concentrate (`CipDose`) | the sum of the differences telescopes; counterexamples for circulation and resume |
| C135 | the two warnings variables (`CipDose`) | simulation by a memory of the last volume, over all histories |
| C136 | `TSav` (`CipDose`) | induction over litres and readings |
| C137 | the clients which do not wait, their table and the descriptors of the process (`TcpCl`) | invariant over all histories: connections and descriptors correspond one to one; universal counterexample for a connection refused at once |
| C138 | the same (`TcpCl`) | invariant: a client which waits is in the table with the time of its last frame; universal counterexample for silence |
| C139 | the same (`TcpCl`) | invariant: the pause is one of 5, 10, 20, 40 times, the attempts are recorded |
| C140 | `MSAPID` (`CipPid`) | invariant over all histories; counterexample after the manual mode |
| C141 | the same (`CipPid`) | invariant: the value is under the ramp; universal counterexample for a quick restart |
| C142 | the same (`CipPid`) | the state reaches a steady change in two intervals; induction over the intervals |
| C143 | the same (`CipPid`) | induction over histories, case analysis; universal counterexample for the jump |
| C144 | the loop of `main` with couplers of digital channels, signals and motors (`MainLoop`, on `Coupler`) | invariant relating the images of the outputs and the commands, over all histories; totality by induction |
| C145 | the same (`MainLoop`) | the invariant, C74 and C75 of the couplers |
| C146 | the same with the requests of OPC UA clients (`MainLoop`) | the invariant; comparison with the pass without requests; universal counterexample |
| C147 | the checks of `tech_object::evaluate` after the evaluation of an operation, on the model of operations (`Guard`, on `Operation` and `Actions`) | case analysis over the end of any history, with the invariants of C15 and C16; concrete counterexamples for extra steps and seats |
| C148 | `check_devices_on_run_state` on switching on (`Guard`) | nothing of the running state is active in an idle operation (C16); universal counterexample for the first step |
| C149 | `process_auto_switch_on` and its flags (`Guard`) | induction over the evaluations of a request |
| C150 | `action::add_dev`, `open_seat_action::add_dev` (`Guard`) | refinement to the filter of the calls, by induction |
| C151 | command line, `lua_manager::init`, `lua_load_configuration`, `main` up to its loop as a list of parts with verdicts; files and results of scripts are parameters | the loop is entered iff all verdicts are good; prefix of a canonical plan; `_violated`: errors of the user's `init`, of `init_profibus` and of `get_PAC_id` change nothing |
| C152 | `check_file` with `fgets` and `sscanf` byte by byte | induction over the text; the checks of all files precede everything else |
| C153 | the buffers `char path[100]` as a length check | all parts, with directories of up to 78 bytes; `_violated`: 90 bytes overflow the buffer |
| C154 | option, `set_port`, conversion to 16 bits in `htons` | from the plan of C151; `_violated` for every port above 65033 |
| C155 | `solve_CRC` bit by bit; the start of C16/C17 (`Params.boot`) | each step of the check sum is injective; `_violated`: the start never computes it, a changed byte is taken for the parameter |
| C156 | `net_init`, `disconnect` and the part of `e_communicate` that uses them, with the table of descriptors of the process and POSIX allocation of the lowest number (`CplSock`) | invariant over all histories; pigeonhole for the bound on descriptors; `_violated` for descriptor 0 and for 1024 descriptors |
| C157 | `AI1`, `level`, `temperature_e`, `temperature_e_analog` on top of `get_AI` (`AnaDev`) | case analysis over modules, all raw values; `_violated` for pressure and analog inputs (no error value), thermometers without a channel, and a resistance thermometer on a current module |
| C158 | `analog_valve_iolink` with the images as bytes and floats as bit patterns (`AnaDev`) | invariant of the pointer over all histories, frame lemmas; `_violated` for set points before the first evaluation, missing channels and the range |
| C159 | callback, array of tags, texts of the codes, `get_EPC_info` (`Rfid`) | refinement to the field as seen by the driver, over all histories; injectivity of the texts; the loop of deletion reduced to a filter when there are no repetitions; `_violated` for the eleventh tag, long codes, repeated tags and numbers below 1 |
| C160 | `evaluate`, `CallSetExtResultFlag`, `CallASyncReadDataAny`, `disconnect` (`Rfid`) | invariants over all histories |
| C161 | `EvalCipReadySignal`, choice of recipes, reset and end of a washing (`CipSig`) | invariant over all histories of cycles; `_violated` for a choice in the cycle after the end of a washing and for a recipe that was edited |
| C162 | `waterTankIsEmpty` (`CipSig`) | induction over readings: the state is what the last level that decides says |
| C163 | the look-up in `initline` and the 29 wrappers with the interpreter's stack (`CipLua`) | the flags over all histories are determined by the first initialisation; symbolic evaluation of a wrapper; `_violated` for four functions that are never looked up and for an object that disappears |
| C164 | `Stop`, `StopDev` inside pause and block (`CipLua`) | symbolic evaluation after any history; `_violated` when the script fails |
| C165 | `io_manager_PFC200::read_inputs` with the buffer as bytes (`Kbus`) | positions of channels by induction over the modules; histories by induction; `_violated` for analog inputs after a reading that failed |
| C166 | `io_manager_PFC200::write_outputs` (`Kbus`) | induction over outputs, bits of bytes; `_violated` for the report of outputs |
| C167 | the constructor of `io_manager_PFC200` (`Kbus`) | induction over the list of devices; `_violated` without a bus |
| C168 | `io_manager::init`, `add_node`, `init_node_AO/AI`, the constructor of `io_node` with nodes as objects on a heap (`IoConf`) | refinement to what the script said, by induction over scripts; a script is defined exactly if its calls are in order; `_violated` for long texts, nodes not yet added, missing names |
| C169 | `get_DI_read_data` … `get_AO_write_data` and the pointers that channels keep (`IoConf`) | invariant (nodes are different objects) and induction over the calls after the binding; `_violated` for nodes added again or late |
| C170 | `init_object_devices`, `check_DI` … `check_M` on top of the manager of devices of C80 (`CipDev`) | the checks are the first way that leads to a device, from the look-up theorems of the manager; induction over the signals; `_violated` for the first device of a project and for negative parameters |
| C171 | the order of the checks and their end at the first that fails (`CipDev`) | induction over the signals; `_violated` for the signals behind |
| C172 | lines 5683-5702 of `init_object_devices` (`CipDev`) | bits of numbers; `_violated` for negative values |
| C173 | `Panel/Model.lean`: the registers and coils of the parameter groups with `operator[]` of the parameters | the loop over the registers against a list with values assigned from a number on; violated: one register alone (the other half is lost), number 0 (value shown for all numbers that do not exist) |
| C174 | `get_device` for all groups with the use made of the device | case analysis over groups against tables of addresses; violated: counters of lines that do not exist (placeholder called as `i_counter`), numbers counted twice |
| C175 | the loops over the 25 recipes in memory | induction over the recipes against the filtered list of used ones; violated: -1 selects an unused recipe 1 |
| C176 | `RC_RECIPE_PAR_START` on the memory of `CipRec` | patch of the memory; violated: the last parameter is never shown, number 0 writes in front of the parameters |
| C177 | flags and counters of the panel | induction over histories against the count of confirmations since the last order |
| C178 | `CipText`: `save_device` as rows of text; read by the Lua reader of `LuaText` | rows to fields, chunk by chunk; independent table `want` |
| C179 | `CipText`: both `set_cmd`, `setSwitch` | the table read before and after the command differs at the named key only |
| C180 | `CipText`: what constructors do with `scparams`, `scenabled` | fold over the list of lines |
| C181 | `Swmrg`: the guard with any number of threads, the critical sections and the semaphore operations as steps | sums over the threads as invariant; number of remaining steps as measure |
| C182 | `Swmrg`, readings begun in a history | units for readers as a bound that no step raises while a writer waits; violated: two writers in turn |
| C183 | `Profibus`: the images, the functions for the program, `eval` with the library as parameter | induction over histories against the bytes received last |
| C184 | `Profibus`, same | bit by bit against the last command for it |
| C185 | `CipSet`: the settings made by the Init functions of the steps, over histories of steps (`Cip.succ`), stops and resumptions | invariant over histories: settings fit the part; kept settings are traced to the only predecessor |
| C186 | `CipSet`, same | last initialization of a history; arithmetic of the limits |
| C187 | `CipSet`: `_Circ` with the timer of `CipDose` | induction over cycles, timer against the sum over good samples |
| C188 | `CipSet`: amounts and ends of self-cleaning, sources of `CipFlow.op` | cases over the steps |
| C189 | `CipEnd`: the end of `_ToObject` with `wasflip` | invariant over histories of cycles and stops: the flag is 'signalled before' |
| C190 | `CipEnd`: the end of `_FromObject` with its timers | invariant: flag and timers against first times of the history since the resumption |
| C191 | `CipEnd`: `_OporCIP` with its timers | invariant as above; induction for the step that never ends |
| C192 | `CipEnd`: `_FillCirc`, `_OporCirc`, the counter | refinement: counter and timer against sums over the history |
| C193 | `CipEnd`: `_DoseRR`, `OpolRR` | invariant: timer against the time of the history |
| C194 | `Start`: `check_on` of a state and the checks of the actions below it, over devices given by `add_dev` (`Guard`); the command of `TechObj` | induction over the steps; composition with the model of `set_mode` |
| C195 | `ColDir`: the numbered commands, the lamps of `Column`, the sequence of signals and the outputs | each output simulates one lamp which sees its own orders only; induction over the history |
| C196 | `OpcUa`: life cycle of the server, its variables, the command and the parameter in memory and as saved | invariant of all histories for the variables; a second one, relative to what is wanted, while starts succeed |
| C197 | `SyncCl`: the connection (connected, bytes sent by the device and not yet read), one exchange with any failure and any number of bytes arrived, the check of the number of bytes | induction over histories: nothing waits on the connection while answers are read whole; the bytes returned are parts of the stream of the connection; simulation by a new client after a failure; universal counterexample of arbitrary length for a split answer |
| C198 | `Medium`: both managers (320 words each, current recipe), the copy, the parameters of the station, loaded recipes, names shown; a cycle of line 1, the commands of the server and `initline` | invariant over histories (current recipe in range, orders and choices are numbers, after a cycle the choice is the loaded recipe); evaluation of a cycle after a choice; universal counterexample for later edits |
| C199 | the same model | words of the memory after each command and each order; copies followed through any number of moves between the recipes |
| C200 | `TextFile`: the descriptor of the object, the open streams of the process with content and position, the five calls; the buffer of 200 bytes | refinement of any sequence of calls to a cursor over the list of lines; universal counterexamples |
| C201 | `DevCmd`: `set_cmd` of eleven groups of classes as functions of the name (list of characters) and the value; conversions to integers are partial | table of the published names against the model, induction over histories, universal counterexamples over all names with a letter |
| C202 | `PlcNext`: the flags of the component, whether the project is complete, the OPC UA server; `Execute` up to its loop, each turn of the loop, `Start` and `Stop` before, between and during them | invariants by induction over histories of events with a record of all actions; universal counterexamples |
| C203 | `saveTechObjects`, `loadTechObjects` on a text file with the semantics of `>>`, `ignore` and `getline`, the adapters' flags and timers of `evaluate` | round trip of the text by induction over the objects; invariant over histories: the file is up to date, or a flag is set and the last writing was not after the last loading; two evaluations then write it |
| C204 | `show_errors` with its static variables, the lamp of the PFC200 | invariant over calls: the commands so far alternate with gaps over 500 ms, the last change is at most 500 ms before the last call; phases of the lamp after the last change of the errors |
| C205 | the two loops of `evaluate` which save one changed item per interval, over any contents; the text file of an adapter with uninitialised variables | each item is changed or up to date (invariant over histories); a part of a quiet history with a late evaluation saves an item, so that as many parts as items save all; round trip of the marks by induction |
| C206 | the nested lists of devices, the growing lists of parameters and targets, the flag, the lists of seats | each is the function of the history in the specification, by induction over the calls from the end; shape of the lists as an invariant |
| C207 | the list of objects with numbers, the remembered existence of the function `eval`, the search loop, `set_extra_step` | invariants over histories; the search by induction on the rest of the list |
| C208 | the order of all functions that give values at a reset and at a start, as lists of assignments | the value of each parameter is a function of the history read backwards, by induction over the history |
| C209 | `CipLines`: the static list of lines, its counter, entering a line, destroying a line, the loops over the list; writing outside the list and using an empty or stale pointer are undefined behaviour | exact characterisation: the loops are defined iff the numbers are a permutation of 1..n with n ≤ 10 (pigeonhole by sub-permutations); then each line once in order of numbers |
| C210 | `PbInit`: the sequence of library calls of `init`, of each cycle and of `close`, with arbitrary results; search for the device; the main program which ignores the result of `init` | traces: prefix lemma for call sequences, induction over cycles; spec as properties of every position of the trace (only opened device, only started watchdog) |
| C211 | `PidLink`: devices with links, switching on and off, setting a value as mutually calling functions with a depth of calls, assignment of an actuator | induction over chains (inductive predicate, uniqueness and freshness of chains), over the depth for rings; measure of stopping regulators for switching off |
| C212 | `SmartPtr`: assignment, constructor, `free`, destructor, `replace_without_free`, the implicit copy constructor; deleting twice is undefined behaviour | induction over histories with the ownership invariant (each object held by exactly one pointer or deleted) |
| C213 | `MemDev`: the drivers (file on Linux and Windows, mapped chip on PFC200 and PLCnext), the two constructors of a start, `init_ex`; running over the chip is undefined behaviour | refinement of an array of bytes over histories |
| C214 | `Article`: `set_article` of the base and of the IO-Link sensors, `read_article`; together with the decoding of `IolSens` | closed form over histories, table of articles as specification |
| C215 | `WinCl`: the Windows client, blocking and asynchronous; answers of the operating system are parameters | invariant over histories |
| C216 | `WinCm`: `net_init`, the service loop over the table of sockets with entries added and taken out while it runs, `killsockets`; a blocking `accept` with nobody waiting is the outcome `none` | invariant of the walk along the table, lifted over rounds and histories |
| C217 | `RecText`: the pieces of the text, `format_to_n` with its limit on a buffer with former contents; read back by the reader of Lua texts of `LuaText` | induction over the pieces (the buffer holds their concatenation), compositional parsing lemmas |
| C218 | `StReload`: the object each line gets when one of them executes `MCMD_RELOAD_WASH_STATS`, on top of `CipStats` | refinement of `CipStats` to a table with a copy on disk |
| C219 | `MsgText`: the text of each kind of message in UTF-8 with its limit, the second `snprintf` over the full stop, the list of at most ten messages, `is_any_error` | equality with a sentence made of parts; induction over the history: the list is that of the unacknowledged messages |
| C220 | `LineDev`: the names that `initline` makes in its two forms, the choice between them, the arrays of 20 bytes, the search for the devices of the line and the common ones | equality with a table of places; the number, the letters and the place can be read back from a name, so names differ |
| C221 | `PanCtl`: the loop over the registers of the group `C_MSA_CONTROL` with its leap over the second half of a temperature, the numbers of the states, the writing of commands, `SetCommand` | induction over the loop: a pass changes nothing behind it; the bytes are read back; induction over the requests for the last command |
| C222 | `CarWash`: numbers of the cars at the four places, switches, the object the line counts for, start, circulation, end and reset | simulation by a ledger of cars over all histories |
| C223 | `PanText`: reading of the registers of texts: the loop with its leaps, conversion of texts, count and time | the loop comes to each first register; what it writes stays up to the next |
| C224 | `PanStat`: requests for the parameters of the station | last-writer specification over all sequences of requests, by relation to the loops of `Panel` |
| C225 | `Journal`: messages with their format and arguments, the entry written, versions of scripts and the checks before one is loaded again | induction over texts; the version as a specification of the first line |
| C226 | `RetPump`: override, timer of the level, pump over histories of steps, cycles, commands, pauses and stops; the coils of the panel | induction over histories; last liquid and last command as specifications over the history from its end |
| C227 | `StepOut`: the calls of a state of an operation (`Operation`) as commands to devices, as the program of the main loop (`MainLoop`) | invariant over histories; composition with C144 |
| C228 | `ParOut`: histories of a state with its parallel steps (`Operation`), the commands to devices (`StepOut`) | invariant over histories: no step twice in the list, output as membership |
| C229 | `Resume`: the operation of `Operation` with the clock, the times of the steps of RUN, the kept time and the working time | refinement of `Operation` by stamps on its calls; frame of paused calls; invariant of the working time over histories |
| C230 | `StepDur`: the answers of the clock to the check of the duration, on the times of `Resume` | invariant over histories that times kept in steps belong to the active one; induction over the calls during a step |
| C231 | `StepMax`: `check_max_step_time` after a pass with the value of `active_step_max_time` it finds, on the times of `Resume` | every call that makes a step the active one begins it unless it is skipped (induction over the loops of `evaluate`); invariant of the calls that leave it alone |
| C232 | `Emul`: the functions of the classes in both modes as classes for the common queue of `ValveOff` | refinement of C47 to the valve on its own, then a simulation of it by a number and two feedbacks; an invariant of all valves for the outputs |
| C233 | `EmuDev`: both modes of `is_emulator` in discrete and analog signals, sensors, motors (with modules as in `Motor`), Altivar motors, circuit breakers; events with manual mode | induction over histories; state and value specified by searching the history from its end |
| C234 | `VirtDev`: virtual motors, scales and devices, the stub; commands, manual mode, `reverse`, `set_rt_par` | induction over histories against the specification of `EmuDev` |
| C235 | `VirtValve`: `virtual_valve` in both modes as a class of `ValveOff` | refinement of `ValveOff` (C47) to a single valve, induction over histories |
| C236 | `EmuScale`: simulated strain gauges, scales by RS232 and on the network | induction over histories; weight and correction specified by searching the history from its end |
| C237 | `EmuPower`: simulated power supply, bit fields and conversions | induction over histories; channels and currents specified by searching the history from its end; undefined conversions are `none` |
| C238 | `EmuCam`: simulated cameras | induction over histories; state, results and readiness specified by searching the history from its end |
| C239 | `EmuTemp`: simulated temperature sensors | induction over histories; temperature, fault temperature and state specified by searching the history from its end |
| C240 | `EmuFlow`: simulated flow and temperature of counters, conversions and bit fields | induction over histories; bounds on the truncation; undefined conversions are `none` |

## Trusted base

* Lean 4.33.0 kernel; the theorems use at most the axioms `propext`, `Classical.choice`,
  `Quot.sound` (checked with `#print axioms`).  No `sorry`, no own axioms, no
  `native_decide`/`bv_decide`.
* The reading of the C++ text: the code is not executed.  Each definition cites its source.
* Floating point: `float`/`double` values are rationals plus NaN (`lean/Verif/Base/Fl.lean`); arithmetic is
  exact: there is no rounding, no overflow and no infinity, unless a comment says otherwise.
* C39 assumes that the devices of the washing groups are valves whose seats only this action moves;
  C40 assumes that a device is in one delay group; C41 assumes that a device has one role in its group.
* The technological-object model (C17–C23) leaves the devices out: "unchanged object" means that no
  operation was moved.
* Lua call-backs, I/O image contents, wall-clock readings are universally quantified
  parameters of the model.
* Operating system: sockets, files and the clock appear as answers of system calls (universally
  quantified); threads, signals, memory allocation failure are not modelled.  Text formatting buffers
  only where stated.
* Which source files are modelled, and by which components (directories of `lean/Verif`; the
  comments of the definitions give the lines, and functions that no comment cites are not modelled):

| source | components |
|---|---|
| `PAC/common/device/base.cpp` | AnaDev Article ColDir Column Counter DevCmd Device EmuCam EmuDev EmuPower EmuScale EmuTemp Emul MainLoop ParDev Pid PidLink Registry SaveDev Valve ValveOff VirtDev VirtValve |
| `PAC/common/device/device.cpp` | Alarm Altivar AnaDev Article Camera CipDose ColDir Debounce DevCmd Device EmuCam EmuDev EmuFlow EmuPower EmuScale EmuTemp Emul Fqt IolSens MainLoop Motor ParDev Registry SaveDev Scales Supply Thld Timer Valve ValveOff VirtDev VirtValve |
| `PAC/common/device/manager.cpp` | CipDev LineDev Registry SaveDev VirtDev VirtValve |
| `PAC/common/device/valve.cpp` | Actions AnaDev BitIo DevCmd Device Emul IolValve ParDev Registry SaveDev Valve ValveMore ValveOff VirtValve |
| `OPCUAServer.cpp` | MainLoop OpcUa |
| `PAC_dev_lua.cpp` | ObjText |
| `PAC_err.cpp` | AlarmText CritErr Led |
| `PAC_info.cpp` | Coupler CplSock EmuDev Emul OpcUa PacInfo PlcNext SysText |
| `PID.cpp` | CipPid ParDev Pid PidLink Registry |
| `PtusaMainPrg.cpp` | PlcNext |
| `SWMRG.cpp` | Swmrg |
| `base_mem.cpp` | Mem MemDev |
| `bus_coupler_io.cpp` | AlarmText AnaDev Analog ColDir Coupler IoConf MainLoop ValveMore ValveOff |
| `bus_coupler_io_PFC200.cpp` | Kbus |
| `cip_stats.cpp` | CarWash CipStats |
| `cip_tech_def.cpp` | CarWash Cip CipDev CipDose CipEnd CipErr CipFlow CipLines CipLua CipPid CipProg CipRec CipSet CipSig CipStats CipText LineDev Medium PanCtl PanStat ParInit RetPump StReload Text |
| `g_device.cpp` | AlarmText DevSrv Recipe |
| `g_errors.cpp` | Alarm AlarmText MsgText Siren |
| `iot_altivar.cpp` | Altivar |
| `iot_base.cpp` | EmuScale |
| `iot_wages_eth.cpp` | EmuScale Scales |
| `l_dtime.cpp` | Time |
| `l_mem.cpp` | Mem MemDev TextFile |
| `l_tcp_client.cpp` | MbClient SyncCl TcpCl |
| `l_tcp_cmctr.cpp` | Boot DevSrv MbClient Modbus SyncCl Tcp TcpCl |
| `led_PFC200.cpp` | Led |
| `log.cpp` | Journal Registry |
| `lua_manager.cpp` | Boot DevSrv Journal LuaCall ParInit Siren SysText |
| `main.cpp` | Boot IolSens MainLoop OpcUa PbInit Siren |
| `mcaRec.cpp` | Cip CipRec CipText Medium Panel |
| `mem_PFC200.cpp` | MemDev |
| `mem_PLCnext.cpp` | MemDev |
| `modbus_client.cpp` | MbClient SyncCl TcpCl |
| `modbus_serv.cpp` | CarWash CipProg Modbus PanCtl PanStat PanText Panel RetPump Text |
| `operation_mngr.cpp` | ActCfg Actions Guard ObjText Operation ParOut Resume Start StepDur StepMax StepOut TechObj Time |
| `param_ex.cpp` | Boot ObjText ParInit Params |
| `params_recipe_manager.cpp` | Journal RecFile RecSave RecText Recipe |
| `prj_mngr.cpp` | Boot RecFile |
| `profibus_slave_PFC200.cpp` | PbInit Profibus |
| `rfid_reader.cpp` | Rfid |
| `tcp_client.cpp` | MbClient TcpCl WinCl |
| `tcp_cmctr.cpp` | Boot Tcp TcpCl |
| `tech_def.cpp` | Alarm Guard LuaCall MsgText ObjMgr ObjText PacInfo ParInit Siren StepMax TechObj |
| `uni_bus_coupler_io.cpp` | Coupler CplSock IolSens MainLoop Scales |
| `utf2cp1251.cpp` | Text |
| `w_dtime.cpp` | Time |
| `w_mem.cpp` | MemDev |
| `w_tcp_client.cpp` | WinCl |
| `w_tcp_cmctr.cpp` | WinCm |

* Not modelled at all: the files for Windows (`w_mem.cpp`, `w_tcp_*.cpp`, `w_console.cpp`), the PROFIBUS slaves
  other than that of the PFC200, the drivers `wago_w750.cpp`, `led_*`, `sys_*`, `mem_PFC200`, `mem_PLCnext`,
  `iot_base.cpp`, `iot_common.cpp`, `analog_emulator.cpp`, `bus_coupler_io_PC.cpp`, the DLL with the control
  program for Windows, the console and the generated Lua bindings.

## Disagreements between the code and the properties
* C01/C02: `get_memory_block` and `memory_range::check_params` compare wrapped 32-bit sums, so requests near 4 GiB overlap; at device level the SRAM start is added twice.
* C05: `final_init` writes the size marker before the default values; a crash in between leaves a marker that validates garbage. A layout change that keeps the total size is not detected.
* C03/C04: when the parameter area is exhausted the set lives on the heap with an indeterminate save position and its saves are lost or land elsewhere; C06: the out-of-range stub element is writable.
* C07: after a wrap of the millisecond counter `get_delta_millisec` is one too large. C45: on 64-bit platforms `step::start_time`, `operation_state::start_time` and the seat washing times keep 32 bits, so after 49.7 days of uptime every step time has passed at once.
* C08: the parameter of a critical error is truncated when compared.
* C10–C12: a suppressed alarm clears flags shared with earlier devices; `reset_errors_params` changes what is shown without a new id; the counter error text changes without a new id.
* C13/C14: leaving manual mode puts out an unlimited value; NaN sticks; limits are not checked; switching off in device manual mode never completes; `prev_manual_mode` goes stale.
* C16: the activity of UNPAUSING is not finalised on start. C25: extra steps – a refused step stays listed, switching duplicates entries, the step after a removed one is passed over, number 0 is undefined behaviour.
* C17: PAUSE/STOP of an idle operation sets the mode bit while the operation stays idle; C18: PAUSE then ON bypasses restrictions; C19: result codes do not tell what happened (off with negative check, pause check −200, 1100+i); C21: user commands 1000+n and 2000+n coincide; C23: the availability counter wraps.
* C26: a jump group without conditions (the constructor creates one) jumps unconditionally; a group without a target uses the target of an earlier group; `enable_step_by_signal` with an empty group among others always enables.
* C39: `wait_time` is computed in `size_t`; a step shorter than the washings (in particular one without a duration) never washes seats.
* C42: `action::check_devices` leaves only the inner loop when the buffer is full and then passes a negative size to `format_to_n`.
* C44: `check_max_step_time` passes the time as the step number and the step as the time for extra steps.
* C29: `loadParams` checks the mappings one by one while copying, so an ill-fitting later mapping leaves the object half loaded and unsaved; its bound `startObjPar + quantity > parSize` refuses the last parameter.
* C30: parameters are printed with six significant digits; a NaN spoils the rest of the file; `ignore()` after an empty parameter list eats the first character of the next name; parameters missing in the file become 0; the file is truncated before it is rewritten.
* C31: `refreshRecipeList` clears copies of the lists of ten, so entries accumulate; `evaluate` leaves the loop after saving an adapter, lists of later adapters wait; renaming through one adapter or reloading does not refresh other lists.
* C46: `__RECMAN[0]` indexes the adapters with −1; `stoi`/`stof` exceptions are not caught.
* C33: `P_RESTRICTIONS_MODE` = 2 is saved but neither its start time nor its expiry is, so after a restart the restrictions stay off for ever; start time 0 means "not running"; 2.5 is stored as 2 without starting the time; the 32-bit start time makes the override end at once after 49.7 days of uptime.
* C34: `set_AO` divides by `max - min` without a check: with min = max ≠ 0 and the request equal to it the result is NaN, passes both limits and is converted to an integer (undefined); a NaN request likewise.
* C35: a 554 output below seven raw units reads back as the lower limit, and without scaling 4 mA reads back as 0. Negative raw values of the current inputs and raw values above the range of the AXL inputs are accepted without an error (`get_AI` only checks `< -32000`, so the over-range code 0x8001 is reported as under-range).
* C36: `show_batch_is_running` and `show_operation_not_running` overwrite each other (the last posting wins); `show_error_exists` and `show_batch_not_running` leave the blue lamp as the earlier postings left it; every change of the shown event calls `turn_off`, which restarts the blink cycle, so a lamp that blinks behind a less important posting of the same cycle is never lit.
* C37: the relative value of `virtual_counter` is a `float`: from 2^24 units on, unit increments are lost for ever, and `get_quantity` at 2^32 and above is an undefined conversion.
* C38: `power_unit::set_cmd` and `circuit_breaker::set_cmd` execute the operator's `ST` through `on()`/`off()`, which are ignored in manual mode, so in manual mode nobody can switch the unit; `open_upper_seat`/`open_lower_seat`, callable from the control program, drive the valve directly even in manual mode; a command value that does not fit an `int` is converted without a check.
* C47: `valve_bottom_mix_proof::is_switching_off_finished` looks only at `is_closing_mini`, so the first evaluation after `off()` removes the valve from the queue before the delay is over, and `is_switching_off` stays set: a bottom mix-proof valve opened by the program is never closed by `off()`. Opened again while its micro valve closes, it is closed spontaneously. `set_state( 1 )` and the operator's command do not cancel a pending request to close.
* C38: `off()` given in manual mode takes effect when the manual mode is left before the delay is over; the end of the delay of a bottom mix-proof valve drives the outputs in manual mode.
* C48: a bistable valve stopped half-way never reports a jam again until the operator sets another state (`is_stoped` is not cleared by on/off); its time is cut to 32 bits and a stuck valve is shown in order every 49.7 days; `valve_iolink_mix_proof::direct_on` restarts the time at every call while the valve is not open, so a program that repeats `on()` never sees an error; `get_on_fb_value`/`get_off_fb_value` of this class look at the opposite position; `valve_AS::direct_off` does not restart the time when a seat is closed, so an error can be reported at once.
* C50: the numbers of terminal outputs and AS-i valves are never compared with the size of the image, and `valve_AS` writes through a null pointer when the gateway is missing.
* C51: `valve_DO2_DI2` is shown on after `off()` and off after `on()` (`get_valve_state` returns the output that `direct_off` sets); the state command of the operator and `set_state` of the program are stored in a field that `valve_DO1`, `valve_DO2`, `valve_DO1_DI1_*`, `valve_DO1_DI2`, `valve_DO2_DI2` and `DO1` never use, so nothing is switched; a bistable valve that has begun to close with its open input still set ignores `on()`.
* C52: `timer::is_time_up` cuts the working time to 32 bits (a countdown of 2^32 - 1 ms or more never ends, a finished one is unfinished again after 49.7 days), and says that the time is not up for a timer that is paused after its end.
* C53: `DI1::time` and `level_s_iolink::time` are `u_int_4` while the clock has 64 bits on Linux: after 49.7 days of uptime every flicker of a filtered input is shown at once. A negative `P_DT` is an undefined cast.
* C56: switching a threshold regulator off does not clear `out_state`: `get_value()` shows 1 while the actuator is off, and after switching on again inside the band the actuator is switched on.
* C57: `calculate_quantity` loses the pulse on which the 16-bit counter wraps (`USHRT_MAX - last + current`), the pulses before the first reading that is not 0, and, once the value is 2^24, single pulses for ever (`float`).
* C58: `start_pump_working_time` is `u_int_4`: after 49.7 days of uptime two queries without a pulse in between give the error "counting of pulses" at once.
* C59: `_AknData` writes the length of the data in two bytes although the buffer has 500 KiB: a reply with 65536 bytes or more (device list or parameters of a large project, compressed or not) carries a wrong length.
* C60: `do_echo` takes what one `recv` returns for one request. A request cut by TCP is executed with zeros for the missing bytes, and the rest is taken for another request; of two requests that arrive together the second is dropped.
* C62: `do_echo` erases the entry of a closed socket while `evaluate` goes on with the next index: the following client is passed over in that cycle.
* C63: an accepted socket is put into the set of ready sockets by hand, so that it is read in the same cycle with a wait of 300 ms: a client of the server port that does not send within 300 ms is disconnected (and the control loop stands still meanwhile); Modbus clients were exempted. `net_init` closes `master_socket` instead of `modbus_socket` when the Modbus port cannot be bound, and leaves the closed descriptor in `sst`: every cycle of the controller leaks a descriptor and a table entry.
* C64: `glob_last_transfer_time` is renewed by every client socket that is ready, Modbus clients and failed reads included: the loss of the server is not reported while a Modbus panel is polling.
* C65: a request number that is not known falls through the `switch` with an empty answer, which `do_echo` sends as `_AknOK`; if `compress` fails the answer is overwritten by two zeros, the answer of a command carried out.
* C66: the id is set by the first client only. With two clients that use the same number the second hides a restart from the first.
* C67: the id of the alarms has 16 bits and may repeat after 65536 changes; it also relies on the ids of the managers, and `tech_obj_error` counts messages only (see C10 to C12).
* C68: `save_device` writes into `outdata` without a limit: a project whose device texts exceed 511992 bytes overflows `tcp_communicator::buf`.
* C69: Modbus replies are built over the request. Bits of the last coil byte that were not asked for are bits of the address (`C69_spare_violated`); registers the project gives no value for are `address % 256 * 256`, `n * 256`, 0, … (`C69_missing_violated`).
* C70: a failed request returns 0 and `do_echo` then sends the request back. For writing a coil that is the acknowledgement (`C70_coil_violated`), also for projects without `write_coils`; for unknown functions such as 6 (write one register) it is the acknowledgement of a write that never happened (`C70_unknown_violated`); for reading 17 to 24 coils it is a proper reply with invented values (`C70_read_violated`).
* C71: a message announcing more registers than it carries writes zeros (`C71_short_violated`); projects without `write_holding_registers` acknowledge every write (`C71_absent_violated`).
* C72: `convert_utf8_to_windows1251` stops at every three-byte character except the number sign, although its table has them: dashes, quotes, the euro sign cut the name shown at a panel (`C72_signs_violated`). U+00C0 to U+00FF are shown as Russian letters (`C72_latin_violated`). A text ending in C2 or C3 is read past its end (`C72_cut_violated`). 96 or more ASCII characters write past the buffer (`C72_long_violated`). `utf8_strlen` returns 0 for invalid text, so it passes the length check at any length and is stored without a terminator (`C72_invalid_violated`); characters of four bytes overflow the three bytes per character (`C72_four_violated`).
* C73: `Mdls[line-1]` with line 0 (`C73_before_violated`); `Mdls[line]->SetCommand` without a check (`C73_command_violated`).
* C74: `e_communicate` calls `recvtimeout` once; when the answer of a coupler arrives in two parts, the missing bytes are taken from the request that still stands in `buff` (`C74_fragment_violated`), the rest is taken as the beginning of the next answer, and from then on no answer is recognised although the connection counts as good (`C74_frozen_violated`).  `( unsigned char ) nd->DI_cnt >> 7 >> 1` is always zero, so that a node with more than 255 digital inputs is never read (`C74_many_violated`).
* C75: `buff[ 7 ]` still holds the function code of the request when fewer than eight bytes arrive, so any answer of one to seven bytes confirms the outputs (`C75_short_violated`, `C75_phoenix_short_violated`).  With 256 to 1992 digital outputs the count is cut to one byte (`C75_many_violated`), with more the message is written behind the buffer (`C75_overflow_violated`).  `io_device::get_DO` returns the value to be written, not the confirmed one (`C75_shown_violated`).
* C76: a coupler that refuses every request is never reported (`C76_refused_violated`); `last_poll_time` is not renewed by `NODEENABLED`, so a node switched on again is reported as lost once (`C76_enable_violated`); value 100 takes a switched off node out of the list (`C76_service_violated`); `NODEENABLED` with the number 0 uses `get_node( -1 )` (`C76_zero_violated`).
* C77: `net_init` succeeds and resets the pause before anything is answered, so that a hanging coupler is connected again, with its time-outs, at every exchange (`C77_hang_violated`).
* C79: `get_AI_read_data` and `get_AO_write_data` compare the offset with the size of the buffer, but `AI_types`/`AO_types` have one element per channel (`C79_analog_violated`).
* C80: `get_device_n` searches binary, by the names, between the first and the last device of the type; two devices registered in descending order are not found (`C80_order_violated`), a device of another type between them is handed out as one of the type (`C80_mixed_violated`), the stand-in for an unknown kind is named "STUB" and breaks the order (`C80_unknown_violated`).  Names are copied by `strcpy` into 20 bytes (`C80_long_violated`); an unknown name of more than 10219 bytes overflows the text of the log (`C80_log_violated`); a negative type reads before `DEV_NAMES` (`C80_type_violated`).
* C81: stand-ins keep the serial number 0 (`C81_serial_violated`); differential pressure and temperature signals tell the subtype of a virtual device, other classes tell -1, whatever was asked for (`C81_subtype_violated`).
* C82: `M`, `LT`, `WT`, `HLA` and `CAM` cast the stand-in device to a class it does not have when the name is unknown (`C82_unknown_violated`); `CAM` casts `i_DO_AO_device*` to the unrelated `i_camera*` and so is wrong for every camera (`C82_camera_violated`); scales of subtypes 2 to 5 and virtual levels and light columns are not of the class that `WT`, `LT`, `HLA` promise (`C82_kind_violated`).
* C83: `set_par_by_name` compares with `par_name[ i ]` without looking whether it is null, which it is for a parameter whose name was forgotten or longer than 25 bytes (`C83_nameless_violated`; no class of the repository does this).  An assignment to a number that does not exist changes the stub which is returned, as 0, for such numbers (`C83_stub_violated`).
* C84: the index of `REC_PAR` is not checked: 121 to 128 write into the head of the next recipe, 129 and more into its values, in the last recipe behind the memory (`C84_index_violated`).  `ResetRecipeToDefaults` forgets RV_SIGNAL_CIRCULATION (`C84_default_violated`).  `getRecipeValue` reads four bytes into an uninitialised `unsigned long`; where it has eight, unset values are not recognised (`C84_unset64_violated`).  `EvalRecipe` tests `getValue(RV_TO_DEFAULTS != 0)`, which is right only because RV_TO_DEFAULTS is 1.
* C85: `setCurrentRecipe` does not load the name, so the recipe gets the name of the one before (`C85_set_current_violated`).  A name with a sign of three bytes is stored with uninitialised bytes (`C85_sign_violated`); a name with a wrong byte passes the length check and overflows (`C85_long_violated`).  Copying within ten seconds of renaming takes the old name (`C85_copy_violated`).  `CAUSTIC_PAR_NAME` and `ACID_PAR_NAME` write 90 bytes into a field of 30 (`C85_medium_overflow_violated`); names of media are stored in UTF-8 and read as Windows-1251 (`C85_medium_encoding_violated`).
* C86: a change of the name does not mark the recipes as changed (`C86_name_violated`); every change postpones the save (`C86_busy_violated`); a failed write clears the mark (`C86_failed_write_violated`); the file is written in place, a power failure leaves a mixture (`C86_torn_violated`).
* C87: NEXT starts a wash that was refused because of its valves (`C87_next_violated`).  The recipe can be chosen or edited during a wash, its valves are not compared again (`C87_select_violated`, `C87_edit_violated`).  12.5 and 12 are different in the comparison and the same valve in use (`C87_fraction_violated`); numbers from 1000 on are not compared, even when they mean shared devices (`C87_shared_violated`).  EVALUATE after a failed start washes with the valves of the recipe unopened (`C87_unopened_violated`).  LOCK and UNLOCK before the first step leave the valves of the recipe open for ever (`C87_unlock_violated`).  Programs from 256 on can be started without a recipe, then memory before the recipes is read (`C87_no_recipe_violated`); the number of a recipe is not checked (`C87_number_violated`).
* C88: UNLOCK, given to a washing line that is not locked, makes it paused with pump and valves on; PAUSE does nothing afterwards (`C88_unlock_violated`), and LOCK leaves the dosing pump on (`C88_dosing_violated`).
* C89: a program with one of the bits 12 to 15 is over at once, with the valves of the recipe opened (`C89_high_bits_violated`); a program written during the wash replaces the parts that are left, so that an acid wash ends without a rinse (`C89_program_violated`).
* C90: programs that contain self-cleaning and another part are not recognised (`C90_bits_violated`); a program written between the start and the first step is not checked (`C90_program_violated`); when the start of self-cleaning failed and the line was left by LOCK, UNLOCK and RESET, no other line can start any more until line 0 washes or the controller is restarted (`C90_stuck_violated`).
* C91: NEXT starts the refused wash (`C91_next_violated`); a failure to set up the object turns the refusal into an error that EVALUATE leaves (`C91_object_violated`); the second caustic part is not checked (`C91_second_caustic_violated`); the program can be written after the check (`C91_program_violated`).
* C92: the time of the contradiction of the levels is that of the last check with good levels, so that after a pause or the start of the program the first contradiction stops the wash without the five seconds (`C92_level_violated`).  The time without flow runs on while the pump is off, so that a pump that starts again is stopped by the first check (`C92_pump_off_violated`), and it is cut to whole seconds, 0.9 seconds are 0 (`C92_fraction_violated`).  A fault of the concentration sensor is not noticed in the steps that prepare caustic or acid by its value (`C92_preparation_violated`); a temperature that is not a number is a good one (`C92_nan_violated`); negative flags are an undefined conversion (`C92_negative_violated`).
* C93: a write of 256 and more coils goes out with the count cut to 8 bits, so that the frame is too short (`C93_coils_violated`); a write of 122 or 123 registers, and a read/write with 120 or 121, reads behind the end of the buffer (`C93_registers_violated`, `C93_read_write_violated`).
* C94: only the length of an answer is checked: the answer of another station to another function is accepted (`C94_foreign_violated`).  124 or 125 registers and 1977 to 2000 coils can never be read (`C94_registers_violated`, `C94_coils_violated`).  A read between setting and writing replaces the registers set by registers read (`C94_read_between_violated`); register numbers from 2147483648 on wrap round (`C94_outside_violated`).
* C95: the number of a bit is not checked, the allowed coils 1944 to 1967 are written behind the buffer (`C95_bounds_violated`); without `mask_reset` the masks are what was in memory (`C95_masks_violated`).
* C96: the expected length belongs to the client, not to the request: when an answer is there and the program asks for something else, that call returns 1 and its request never goes out (`C96_other_violated`).  Read, not modelled: `reconnectTimeout > maxreconnectTimeout ? maxreconnectTimeout : reconnectTimeout *= 2` stops doubling but never sets the maximum; a connection refused at once is treated as made, with socket 0.
* C97: a command is put together before the connection is made and repeated unchanged until it is answered: a drive commanded on and then off during an outage of any length is started when the connection comes (`C97_stale_violated`).  When 18 to 20 bytes of an answer come in one piece, its end - the motor's current - is the next command word (`C97_mixed_violated`).  An ATV320 that refuses a write of the configuration is asked for ever, never commanded, and shown in state 0 without an error (`C97_refused_violated`).  A speed that is not a number or 178956971 % and more: undefined conversion (`C97_speed_violated`).
* C98: a drive that accepts connections and never answers is never reported, every new connection restarts the 5 s (`C98_silent_violated`).  The speed in percent is kept in Hz: 50 % commanded while 120 Hz is taken as the maximum read as 120 % when the drive reports 50 Hz (`C98_percent_violated`).  The constructor copies the address into 16 bytes with strcpy (not modelled).
* C99: the file is emptied and then written in place; power lost right then leaves nothing, and the number of records is then an uninitialised variable (`C99_truncated_violated`).  Only the first line writes the file, and not while it is locked (`C99_locked_violated`).  Lengths in the file are checked after the text was stored (`C99_corrupt_violated`).  On PLCnext every save appends the name of the file to an array without place for it (`C99_plcnext_violated`).
* C100: a wash ended by the operator is counted but not written, any number of them is forgotten at a restart (`C100_reset_violated`).  MCMD_RELOAD_WASH_STATS during the first wash of an object makes the line count into an object that is never written (`C100_reload_violated`).  The comparison is `>`: with a maximum of N, N + 1 caustic washes are allowed in a row.
* C101: a suppressed device in error switches off the red lamp and the siren for all devices registered before it (`C101_suppressed_hides_violated`).  An alarm that appears in manual mode or in the first 5 s never sounds, however long it lasts (`C101_alarm_missed_violated`).  The siren also sounds when a critical error goes away while another one remains (`C101_cleared_error_sounds_violated`).  `is_any_important_mode` remembers in one `static` variable for all objects whether the first object has the Lua function, so the green lamp is wrong with a mixture of objects (`C101_green_violated`).
* C102: `exec_lua_method_var` leaves the error handler (and the object and `nil`) on the Lua stack in each of its error exits, and `lua_check_function` never removes the function it looked up.  The calls are made from the main program, whose stack is never unwound, so a failing `eval` adds a value per cycle until the C stack limit of Lua (`C102_failing_violated`), and each check of an operation one even when all is well (`C102_check_violated`).  `error_trace` makes a `std::string` of `lua_tostring`, a null pointer for `error({})` (`C102_error_object_violated`).  `lua_getfield` on a global that is no table raises an error outside any protected call (`C102_not_table_violated`).
* C103: after 51 different errors the memory keeps 25 by the order of the alphabet, not by age, so frequent errors are logged again (`C103_repeats_violated`).  Texts of 10229 bytes overflow the static buffer of the log, which is written with `vsprintf` (`C103_long_violated`).  Read in the same file, not modelled: `char_exec_lua_method` returns a pointer into a Lua string it has already removed from the stack.
* C104: `pressure_e_iolink` exchanges the bytes of PM17xx in the image itself, so a cycle without an answer of the coupler shows another pressure (1 bar becomes -6.141 bar, `C104_stale_violated`).  An unknown article shows 0 bar in good order.  `temperature_e_iolink` adds the bytes as `char`: on processors with signed `char` temperatures with a low byte of 128 or more are 25.6 degrees too low (`C104_temperature_violated`); it also reads `data` without a check for null.
* C105: `wages_pxc_axl::evaluate_io` exchanges the words in the image itself (`C105_stale_violated`: 1 kg becomes 65536 kg).  Fault numbers of the module are shown as a weight of -2147483 kg and a tare then keeps it (`C105_fault_tare_violated`).
* C106: `wages_RS232` exchanges the characters in the image itself on each evaluation; `atof` has no end inside the module, so a digit in the next module's image becomes part of the weight; a missing `+` (a negative weight) is shown as an error.  `wages_eth` keeps state and weight for ever when the connection is lost, and mixes a piece of a message with the rest of the one before (`C106_network_piece_violated`).  Read, not modelled: `wages_eth` uses its connection object without a check when no address is configured.
* C107: the error numbers -1001 and -1002 are shown only in the reading that measures; all others within 500 ms show the old weight (`C107_error_violated`).
* C109: `camera_DI2::evaluate_io` calls `direct_set_state( -1 )` for a camera that is not ready for the configured time, which switches its output on in every cycle (`C109_forced_violated`); the state of the device stays 0 (`C109_state_violated`).  `start_switch_time` is a `u_int`: after 50 days every time has passed (`C109_days_violated`).  Read, not modelled: `camera::save_device_ex` uses `%d` with `fmt`, so the text sent to the server is always `RESULT=%d, READY=%d`, no Lua table.
* C110: `circuit_breaker::evaluate_io` copies `in_info` to the output before it reads the new data, so a reconnection switches the channels to what was read while the link was broken (`C110_reconnect_violated`); `set_cmd( "ST_CH" )` does not set `valid_flag` (`C110_channel_violated`).
* C111: a command of a `power_unit` is dropped when no cycle with a good link falls between 300 ms and a second after it (`C111_lost_violated`); a command before the first `evaluate_io` goes to the `static` stub and the empty image is sent as valid, so switching on switches off (`C111_early_violated`); nominal currents are cut to 3 bits (`C111_current_violated`).  Read, not modelled: the pointer of the output is not checked for null, `static_cast<int8_t>( val )` is undefined for large values.
* C112: `camera::save_device_ex` gives `fmt` the format `RESULT=%d, READY=%d, `, which is printed as it stands: with one camera in the project the state of no device can be read (`C112_camera_violated`).  `circuit_breaker::save_device_ex` prints `M=` a second time from a member that is always 0: a fuse in the manual mode shows as automatic (`C112_fuse_violated`).  A value `-nan` or `-inf` makes the whole chunk fail (`C112_nan_violated`).  On the emulator `concentration_e_ok::save_device_ex` throws, `OK={1}` has no argument (`C112_emulator_violated`).
* C113: `valve_iolink_gea_tvis_a15` sets `out_info` to a null pointer in its constructor, although the class has a stub: any command before the first `evaluate_io` dereferences it (`C113_early_violated`).  ThinkTop and SORIO set `out_info` in each cycle without a check: without the output channel the next command dereferences null (`C113_unlinked_violated`); what they are told before the first cycle goes to the stub and is lost (`C113_lost_violated`).  The tests of T.VIS do not reach this, they run on the emulator or after `evaluate_io`.
* C114: `direct_on` of ThinkTop, SORIO and T.VIS restarts the switching time as long as the head does not report open; T.VIS asks for all three pilots at once, joined by `||`, which never holds, so each `on()` restarts it (`C114_repeated_violated`).  `valve_iolink_gea_tvis_a15::get_fb_state` does not look at the command: a valve told to open whose head does nothing is shown closed, in order (`C114_ignored_violated`).  A double seat valve with a lifted seat shows no error at all (`C114_seat_violated`).  The feedback values of SORIO are those of its solenoid (`C114_values_violated`).
* C116: `_InitFilCirc` for water leaves V07 to V09 as the step before left them and opens V11: after the emptying of the caustic circuit both the caustic tank and the drain are open during the filling, and for a washed line the return pump is switched on again (`C116_fill_violated`).
* C117: the emptying of the circuit (steps 29 and 49) returns everything to the tank, whatever its concentration and even if the tank is full (`C117_emptying_violated`); with `circ_medium_no_pump_stop` the full small tank is relieved into the tank of the medium without a look at its level (`C117_circulation_violated`).
* C118: `SCInitPumping` never touches V00.  If the self-cleaning step 153 ends while V00 is open, it stays open through steps 154 to 157, whatever the level (`C118_selfclean_violated`).
* C119: `_FillCirc` looks at no level: steps 26 and 46 pump from an empty tank of caustic or acid with V03 or V02 open (`C119_circuit_violated`).
* C120: `InitFilRR` opens the steam valve together with the pump, before there is a flow; and a step that stops the pump leaves the steam valve as it was until the next cycle (`C120_start_violated`).
* C122: `GetConc` replaces a zero difference of the two conductivities by 1; the shown concentration then falls when the conductivity rises (`C122_equal`; such a line is not calibrated, the property does not cover it).
* C123: `LASTRECNAME='%s'` is not escaped: a recipe name with an apostrophe or a line feed, which an operator can enter, makes the states of all objects unreadable (`C123_apostrophe_violated`, `C123_newline_violated`). `-nan` among the parameters does the same (`C123_nan_violated`), an infinite or large integral parameter is a conversion to int out of range (`C123_range_violated`), and the states 4 to 9 have an empty name, so their lists hide each other (`C123_unnamed_violated`).
* C125: `params` calls `set_param( par_id, index - 1, value )`, but parameters are numbered from 1: every value is written one place too early, the first is lost (or goes into the stub that all indices out of range read), the last is not restored (`C125_shift_violated`, `C125_last_violated`). Besides, `set_param` is not registered for Lua at all, so every restoration fails unless a project registers it (`C125_unbound_violated`).
* C126: `( u_int_4 ) val` for a negative value or one from 2^32 on is undefined behaviour (`C126_range_violated`).
* C127: `check_file` passes the empty message as the format to the log, so a missing script is answered with an empty reason (`C127_missing_violated`). A script of the project with an error is silently replaced by one of the same name in the current directory, with success (`C127_fallback_violated`); if there is none, the message is about that missing file and not about the error in the script (`C127_message_violated`), without its first letter. The message about a wrong version has quotation marks, which `CMD_ANSWER="{}"` does not escape: the server cannot read the states any more until the next reload (`C127_version_violated`); with a version of six digits it overflows `err_str[ 100 ]` (`C127_overflow_violated`), and a message of 181 characters or more leaves `cmd_answer` without an end (`C127_long_violated`).
* C128: an object that allows all 17 entries has a list longer than the 16 rows of the panel, the last one (to leave out the final rinse) cannot be chosen there (`C128_last_row_violated`).
* C129: rinsing to the canal (9000) leaves its flag set when another program is chosen instead, so that the final rinse of that wash goes to the canal too (`C129_return_violated`). Leaving out the final rinse is offered for program 133, but choosing it drops the program (`C129_option_violated`). A program stays loaded when an object is chosen that does not allow it (`C129_object_violated`). The server may choose any known number, offered or not, also during a wash, whose program is then replaced (`C129_not_offered_violated`). At the panel the number of the row is not checked: a row after the end of the list loads a program of an earlier list (`C129_stale_row_violated`), and one outside of the 16 rows reads foreign memory (`C129_row_number_violated`).
* C130: an error of the device on an IO-Link port (2) is shown as state -2, the number of a feedback error of opening, for every valve of the terminal (`C130_link_violated`). Without `check_config` the commands of terminal valves are dropped silently, and a valve told to open shows that it is closed, without error (`C130_config_violated`). Closing an AS-i valve from a lifted seat does not restart the time, so an error may be shown at once (`C130_seat_violated`).
* C131: texts of messages and devices are put between quotation marks without any escaping; one message with a quotation mark makes the whole list unreadable for the server, all other alarms included (`C131_quotation_violated`).
* C132: the description looks up the node by `number - 1` as a position, but the number is given by the project: with other numbers the loss of one node is reported with the name and address of another (`C132_other_node_violated`), or memory outside of the list is read (`C132_number_violated`; `NODEENABLED` takes the number from the server, 0 included). The static buffer of 200 bytes is written without a limit: a name of 100 Russian letters overflows it (`C132_length_violated`).
* C133: the concentration found by the check is an average by volume; when the counter does not move during the check it is zero, and the dosing is computed as for pure water, whatever was measured (`C133_no_flow_violated`). A tank which is already too concentrated is still given one litre (`C133_least_violated`).
* C134: `CircRR` counts the consumption of the dosing pump while the pump is off (`C134_circulation_violated`). `InitAddRR` sets the displayed time to zero at a resume, but the timer goes on from its value, so that the seconds before the stop are counted twice (`C134_resume_violated`).
* C135: the warning is only cleared when it is reported; when a dosing ends at its first cycle, the warning is reported in the next dosing, whatever its volume (`C135_carried_violated`).
* C137: a connection which fails at once (wrong or unreachable address) is closed in `AsyncConnect`, but the function runs on to `connectedstate = ACS_CONNECTED` with socket 0. The frame is then written to descriptor 0, and as this fails for the standard input, descriptor 0 is closed; the next connection of any device gets number 0, and the frames of the first device go to it (`C137_refused_violated`, `C137_stream_violated` and the example). The pause between the attempts is also set back to its least value.
* C138: timeouts of requests are looked at only when `select` has reported some socket; while all are silent, a client waits for ever (`C138_silence_violated`).
* C139: `reconnectTimeout > maxreconnectTimeout ? maxreconnectTimeout : reconnectTimeout *= 2` has no effect in its first branch, so that the pause reaches 40 instead of 30 times (`C139_limit_violated`). `AsyncRecive` takes 0 from `recv` for no data: a connection closed by the scales is never given up (`C139_closed_violated`). `newDataIsAvailable` and `asyncReciveTime` are not initialised.
* C140, C141: `acceleration` adds the value of the manual mode (`start_value`) after the limits were applied, so that the output exceeds 100 per cent and its largest value; `start_value` is never cleared, so that all later starts begin with it (`C140_manual_violated`, `C141_manual_violated`).
* C141: `pid_on` does not reset the regulator and `MSAPID::reset` does it only after three seconds without a calculation: switched off and on within this time the regulator gives its old output for an interval, before the ramp begins at zero (`C141_restart_violated`).
* C143: `pid_eval` calls `reset` at the end of the manual mode, which never has an effect there because `eval` has just noted the time. The output jumps to the value the regulator has computed unseen until the next interval (`C143_jump_violated`).
* C144: `DO1` (signals, lamps, sirens) does not override `direct_set_state`, so that `set_state(1)`, the command `S` of the operator and a write of an OPC UA client set a field that is not the output (`C144_state_violated`).
* C144: at the end of the loop the outputs are not switched off: the couplers keep the last message. The handler `stopHandler` is also installed for `SIGSEGV`, `SIGFPE` and `SIGILL` and only clears `running`; the faulting instruction is executed again after it, so that the controller hangs with its outputs on instead of ending (read, not modelled).
* C146: `write_state` and `write_value` answer `UA_STATUSCODE_GOOD` although `set_state` and `set_value` do nothing in manual mode (`C146_manual_violated`).
* C147: `operation_state::check_devices` looks at the step of the operation and at the main step only. Failed devices of active extra steps do not pause the operation (`C147_extra_violated`), nor those of `open_seat_action`, which are not in `devices` (`C147_seats_violated`).
* C148: before an operation is switched on only the devices of the operation itself are checked, since there is no active step yet; the first step is started with its failed devices and paused one pass later (`C148_first_step_violated`).
* C150: `open_seat_action::add_dev` adds one group at most; a device for a group after the next one is dropped silently, the first time a group is missing (`C150_seats_violated`).
* C151: `lua_manager::init` ignores the results of the user's `init`, of `init_profibus` and of `get_PAC_id` (-1 is then the number of the controller).
* C153: `lua_manager::init` builds paths with `strcpy` and `strcat` in `char path[100]`; the directories come from the command line unchecked.
* C152: for a missing file `check_file` hands an empty text to the log instead of a message. `lua_tostring` of an error object that is no text is a null pointer in `sprintf( "%s" )`.
* C154: ports from 65034 on make the port of Modbus wrap around; the log reports the sum.
* C155: the check sum of the parameters is never compared at the start.
* Not modelled: PAC/linux/PAC_PFC200 and the Wago 750 variant (`wago_w750.cpp`) include `l_bus_coupler_io.h`, which is not in the repository, so they cannot be built. In them `nr_kbus_found < 0` is never true since it is a `size_t`.
* C156: `disconnect` takes descriptor 0 for no socket; a process started with a closed standard input leaks the first connection (`C156_zero_violated`). `net_init`, `sendall` and `recvtimeout` use `FD_SET` without checking the number (`C156_many_violated`).
* C157: a thermometer without a channel reports state 1 (0 for the analog class) and the correction as its temperature, while all other analog sensors report -100 (`C157_unbound_violated`): both classes look at the value and not at the error code of `get_AI`.
* C157: pressure sensors and analog inputs have no error value: a broken wire gives the correction minus one, which can be in the range of the sensor (`C157_value_violated`).
* C158: `analog_valve_iolink::evaluate_io` stores the result of `get_AO_write_data`, which is null without a channel; the next command writes through it (`C158_unbound_violated`). Set points before the first evaluation are lost (`C158_early_violated`), and none is limited to 0..100 (`C158_range_violated`).
* C159: the callback of the RFID reader does not check `EPC_cnt` against `MAX_EPS_COUNT` (`C159_eleven_violated`) nor the length of a code against `EPC_STR_LENGTH` (`C159_long_violated`); `get_EPC_info` does not check numbers below 1 (`C159_index_violated`). A tag that was reported twice is deleted once, since the loop of deletion skips the entry after a deleted one (`C159_twice_violated`). The callback runs in a thread of the driver and changes the array without a lock (not modelled).
* C161: the end of a washing clears `dev_upr_cip_ready` and `loadedRecipe` but not `lastloadedRecipe`; if the operator chooses the same recipe before the next cycle, `EvalCipReadySignal` sees no change and the signal of readiness stays off until another recipe is chosen (`C161_rush_violated`).
* C163: `initline` looks up 25 of the 29 functions of a project; `is_FillCirc_func`, `is_InitFillCirc_func`, `is_OporCirc_func`, `is_InitOporCirc_func` stay 0, so the functions `cip_FillCirc`, `cip_InitFillCirc`, `cip_OporCirc`, `cip_InitOporCirc` of a project are never called (`C163_forgotten_violated`).
* C164: `Stop` and `StopDev` call either the function of the project or the built-in one; when `cip_Stop` or `cip_StopDev` fails, an error is printed and the built-in function is not carried out, so a paused or blocked line keeps its pump running and its valves open (`C164_pause_violated`, `C164_block_violated`). Likewise a failing `cip_CheckErr` means that no error is found.
* C165: `read_inputs` of the PFC200 looks at the result of the library for digital inputs only; analog inputs are taken from the buffer also after a failed reading, before the first successful one from memory that was never written (`C165_analog_violated`).
* C166: the results of `WriteStart`, `WriteBytes`, `WriteEnd` are ignored, the outputs are reported as written (`C166_report_violated`); an inactive node is not read but still written.
* C167: `nr_kbus_found` is a `size_t`, so `nr_kbus_found < 0` is never true; without a bus the constructor reads `devList[ SIZE_MAX ]` (`C167_missing_violated`).
* C168: the constructor of `io_node` copies the address and the name with `strcpy` into 16 and 20 bytes (`C168_text_violated`); ten Cyrillic letters fill the name; `init_node_AO/AI` go through a null pointer when the node was declared but not yet added (`C168_early_violated`); a node without address and name is reported with `%s` of a null pointer (`C168_name_violated`).
* C169: `add_node` for a number already in use replaces and leaks the old object; channels already bound keep pointing to it, so that their outputs are never sent and their inputs never change (`C169_again_violated`); a channel bound before its node is added stays unbound (`C169_early_violated`).  A message appears only in debug mode.
* C170: the checks take a serial number of zero for a missing device, but the first device of a project has the number zero; a parameter that means it is refused or, worse, another device is used (`C170_first_violated`, `C170_other_violated`).  Negative parameters are undefined (`C170_negative_violated`).
* C171: the checks end at the first that fails, all later signals stay those of the object before (`C171_rest_violated`, `C171_options_violated`).
* C173: the panel cannot write one register of a parameter: `ModbusService` takes four bytes for every pair, so the word of a single register becomes the lower half and the upper half comes from behind the message (`C173_half_violated`). Coils are numbered differently from registers: coil `c` is parameter `c - 1`, registers `2c` are parameter `c`.
* C173: registers 0 and 1 of the parameter groups are written into the element given for wrong indices; afterwards every parameter that does not exist shows this value (`C173_zero_violated`).
* C174: reading flow or quantity of a line that does not exist casts the placeholder (`device*`) to `i_counter*`, an unrelated class: undefined behaviour by one Modbus request, for instance for register 2 of group 5 (`C174_counter_violated`). In the groups with two registers per value the line is `number / 200` but the place `number % 100`, so writing output register 302 sets the pump of register 202 (`C174_twice_violated`).
* C175: `RC_SELECT_REC` reads as -1, and writing -1 back selects recipe 1 if it is not in use (`C175_select_violated`). The panel takes a recipe as used when the mark equals 1, the list for the server when it differs from 0.
* C176: the last parameter of a recipe can be written but not read by the panel (`<=` against `<`), number 0 writes four bytes in front of the parameters (`C176_last_violated`, `C176_zero_violated`).
* C155: `solve_CRC` adds the lower 16 bits of the number of the project only (`C155_project_violated`).
* C178: the number of a car is written between apostrophes without any escape (cip_tech_def.cpp 395-400); `O'Neil` makes the description of the line unreadable, `',OPER=0,A='` forges the step the server reads.
* C179: `NCAR` with a text checks the number of characters (`< 15`, `utf8_strlen`) but copies bytes with `strncpy` into 45 bytes; 12 characters of four bytes leave no terminating zero (cip_tech_def.cpp 650-691). Negative values for `CMD`, `S_PAR_UI`, `RT_PAR_UI` are cast from double to unsigned, which is undefined.
* C180: a line without self-cleaning executes `scparams = parpar` (cip_tech_def.cpp 292) although `scparams` is shared by all lines: parameters of self-cleaning which another line has created are lost (leaked) or never created, and commands for them overwrite `PAR_MAIN`.
* C182: readers can wait for ever while writers take turns (`C182_reader_violated`), as a note in SWMRG.cpp says. A reader that asks after a waiting writer can still read before it, by taking the unit of the semaphore meant for another reader (example beside `C182_writer_partial`).
* C183/C184: `offset < 240` and `byte_offset < 242` exclude the last double word and word of the 244 bytes (profibus_slave_PFC200.cpp 533, 564, 576, 589): reading gives 0, writing is ignored. `get_int4` overflows `int` for values from 2^31 on. Negative places are not checked. After a failed `ReadBytes` or `WriteBytes` the lock taken by `ReadStart`/`WriteStart` is not given back, and a failed read also blocks the outputs.
* C185: the steps 10 and 13 (circulation of rinse water) switch the heater on with the task left by the step before: 0 (cip_tech_def.cpp 4612-4621).
* C186/C187: the limits and times of steps are converted from float to unsigned without a check; negative values of a recipe are undefined behaviour (cip_tech_def.cpp 4325, 4484, 4764-4808).
* C188: step 176 of self-cleaning empties the tank of caustic but takes the litres of the tank of acid (SCP_LITERS_AFTER_LL_TK, cip_tech_def.cpp 6355); a volume or time of 0 makes a step of self-cleaning endless, because `volumePassed` and `timeIsOut` are false for 0; the drain times of the tanks of caustic and acid are never used.
* C189: the last rinse (step 86) ends at once, whatever volume is left, if the thermometer of the return shows less than 5 degrees and the program is not the one of rinsing (cip_tech_def.cpp 4997-5000); a broken sensor ends the rinse of the disinfectant.
* C190: TMR_CHK_CONC is started when the concentration does not fit and not reset when it fits again, so the error comes at the second deviation without a delay (cip_tech_def.cpp 5060-5095).
* C191: with `dev_os_object_empty` the emptying has no limit of time (cip_tech_def.cpp 5270-5282).
* C192: with P_V_RAB_ML or P_V_LL_BOT of 0 filling and emptying the small tank end in the first cycle, as the counter is at 0 (cip_tech_def.cpp 5323-5335, 5603-5611).
* C194: `set_mode( n, 2 )` for an operation that is off sets its bit; `set_mode( n, 1 )` then takes the branch for continuing, which calls neither `check_on_mode` nor the check of restrictions. Required signals configured for a step are never looked at (`step::check` tests them only for the step of the operation). `DT_TS` and `DT_PDS`, digital inputs by class (`DI1`), are not in the list of `DI_DO_action::check`, `DT_WT` is not in that of `AI_AO_action::check`: an operation with such an input is never switched on.
* C195: the blinking commands of a signal column (10 to 17) switch an output only when they are repeated: the first call just notes the time, nothing in the runtime repeats a command of the server, so the lamp stays dark while `GREEN=1` is published. `SIGNALS_SEQUENCE` set a second time keeps the channels of lights it does not name, so that two lights share an output.
* C196: `OPCUA_server::shutdown` resets `is_dev_objects_created` but not `is_PAC_info_created`: after 'off' and 'on' the node `PAC_info` is missing until the controller is restarted. The command `P_IS_OPC_UA_SERVER_ACTIVE=1` saves the parameter before it starts the server: if the start fails (port in use), the parameter stays 1, a further 'on' is ignored and answered with 0, `evaluate` iterates a server which was never started, and at the next boot `main` returns EXIT_FAILURE. With two devices of one name (all devices of unsupported kinds are called `STUB`) only the first is shown.
* C197: `recvtimeout` calls `recv` once, and `modbus_client` accepts whatever has the right number of bytes; the transaction number is always 0 and not compared. After an answer that arrived in two parts the client is one answer behind for ever: each call returns 1 with the values of the previous request (`C197_behind_violated`). When the device closes the connection `Communicate` returns 0 and keeps the socket (`C197_closed_violated`).
* C198: `EvalRecipes` loads a medium recipe only when the choice changes; `CAUSTIC_PAR`/`ACID_PAR` edit the recipe alone, so that the screen shows the new concentration and the station works with the old one (`C198_stale_violated`). The flag "recipe is in use" is not looked at: an empty recipe can be chosen and sets concentration and limits to 0 (`C198_empty_violated`). A refused number leaves −1 in the parameter although the old recipe is still in use.
* C199: `recipeCopyBuffer` is static and shared by caustic and acid (`C199_mixed_violated`). `ResetRecipeToDefault` of `TMediumRecipeManager` sets only `RV_IS_USED` and the order (`C199_default_violated`). `setRecipeValue` does not check the number of the value (`C199_index_violated`). `getValue( RV_TO_DEFAULTS != 0 )` has a misplaced bracket and reads the right value only because `RV_TO_DEFAULTS` is 1.
* C200: `data_file::fget_line` (Linux) terminates a line of 200 bytes behind its buffer (`C200_long_violated`); `pfget_line` goes back by `strlen` of the line (`C200_zero_violated`); `file_open` returns the descriptor or −1, `base_mem.h` documents 0 and 1 (`C200_open_violated`); the descriptor is 0 before opening and after closing (`C200_stdin_violated`); a second `file_open` leaks the first descriptor (`C200_leak_violated`). The Windows version of `pfget_line` goes back one byte further; it is not modelled.
* C201: `device::set_cmd` and most classes look only at the first letter (`C201_prefix_violated`, `C201_feedback_violated`), so that the published `MAX_FRQ` of a frequency converter switches manual mode (`C201_published_violated`); the results of the base class are dropped by `camera` and the IO-Link valves (`C201_ack_violated`); `prop[ 5 ]` is read without looking at the length (`C201_short_violated`); `static_cast< int16_t >( val * 100 )` has no limit (`C201_range_violated`). `circuit_breaker` passes `ST_CH` with a number above 4 on to the base class, where it is a command for the state of the whole device.
* C202: `Execute` returns with `error_flag` after a failed loading, but the next call skips only the loading and enters `while ( running )`; `running` was set by `Start`, so the control works with an incomplete project (`C202_failed_violated`). `running = 1` after loading overwrites a `Stop` (`C202_stop_violated`). A failed start of the OPC UA server returns without clearing `init_flag`, so that the project is loaded again in every call of the task (`C202_again_violated`). `shutdown()` at the end of the loop is not undone by the next `Start` (`C202_serve_violated`). In `main.cpp` (not modelled) the handler of `SIGSEGV`, `SIGFPE` and `SIGILL` only sets `running = 0` and returns, so that the failing instruction is executed again for ever: the program hangs with the outputs as they are instead of ending. `valve::evaluate()` is called twice per cycle on PLCnext (the second time under the name `valve_bottom_mix_proof::evaluate`).
* C203: the flag of a loaded recipe is cleared before the file is opened; when it cannot be opened the loaded recipe is not in the file until the next loading (params_recipe_manager.cpp 150-162, 181-195). The file is emptied and then written: a failure of power in between loses the recipes of all objects, or leaves a name without its number, or a number without its last digits. Objects whose records are missing show an empty name instead of "Не выбран".
* C204: the colour of the lamp is chosen only when it is lit: for up to half a second it is green although there are errors, and errors shorter than a period may never be shown (PAC_err.cpp 27-72).
* C205: `evaluate` saves the first changed adapter (and the first changed storage) and leaves the loop; with changes every ten seconds of one adapter the others are never saved (params_recipe_manager.cpp 133-144, 164-176). `isChanged` is cleared before the file is opened. `deserialize` reads into uninitialised variables `recipeCount` and `active`: an empty or truncated file is undefined behaviour at the next start (params_recipe_manager.cpp 483-493).
* C206: `jump_if_action::get_int_property` does not know `next_state_n`, which `set_int_property` accepts (operation_mngr.cpp 1832-1840). The base `set_bool_property` and `set_int_property` return 0 for every name. `open_seat_action::add_dev` appends only one empty group: a device for a later group is dropped (1456-1479). `clear_dev` is not overridden by `open_seat_action`, whose seats stay.
* C207: `tech_object_manager::evaluate` asks once per process whether Lua has a function `eval` (static `has_Lua_eval`, tech_def.cpp 1533-1549): a function which is loaded later is not run. `set_extra_step` returns 0 for unknown commands (1434-1447).
* C208 (real bug): at a reset `init_params` runs the Lua functions `init_rt_params_uint` and `init_rt_params_float`, and afterwards `init_runtime_params` sets all run-time parameters to 0 (param_ex.cpp 129-146, tech_def.cpp 747-777, 88-94): these functions have no effect at all. `init_runtime_params` runs only at a reset, not at each start.
* C208 (real bug): `cipline_tech_object::init_params` hides the non-virtual `tech_object::init_params` and is never called (tech_def.cpp 716 calls the base by name). A reset by command, or the first start of a project (final_init comes after the scripts, common/lua_manager.cpp 351), sets the parameters of the regulators of a washing line to 0 until the next start.
* C209: `initline` stores a line under its number but counts lines separately, so a gap, a repeated number or calling `initline` twice makes every check among lines use a null pointer; a number outside 1..10 writes outside the static list; the destructor leaves the pointer in the list (cip_tech_def.cpp 1012-1013, 295-361).
* C210: `main` ignores the result of the start of the PROFIBUS slave, so after a failed start every cycle triggers the watchdog and may exchange data with a device which was not opened (main.cpp 124-129, 214-219); `close_device` calls `Exit` instead of closing the device and `release_ADI` calls `Exit` again (profibus_slave_PFC200.cpp 654-694); `get_ADI` compares the address of the pointer with NULL, so a missing interface is reported as success by this step (line 101).
* C211: `PID::set_string_property` refuses only a regulator as its own actuator; two regulators that are each other's actuator (both with sensors) make `set_value` call itself without end (PID.cpp 275-301, 436-443). `threshold_regulator::set_string_property` has no such check, so a threshold regulator can be its own actuator and switches itself off.
* C212: `auto_smart_ptr` does not forbid copying (the base class has a public copy constructor), so a copy makes two owners and a double deletion; assigning a pointer to itself deletes the object and keeps the pointer (smart_ptr.h 40-42, 146-154). The program itself does neither.
* C213: on Windows `SRAM::SRAM` answers any failure to open an existing file by creating it anew, which erases all parameters (w_mem.cpp 24-34). On Linux descriptor 0 is taken for a failure (l_mem.cpp 36-49); the second driver then opens the file again. `read` past the end of the file leaves the buffer as it is. The chips return 0 whether or not anything was stored (mem_PFC200.cpp 41-59, mem_PLCnext.cpp 22-40) and check no bound.
* C214: `read_article` keeps the previous layout for an unknown article and warns only when debugging (device.cpp 2888-2954); `device::set_article` and `set_descr` delete the old text before reading the new one (base.cpp 187-204), so `set_article( get_article() )` reads freed memory. The program calls it once for each device.
* C215: in `Connect` and `AsyncConnect` of the Windows client a failing `setsockopt` returns without `closesocket` (w_tcp_client.cpp 141-148, 250-258). `Communicate` tests `!connectedstate`, and "connecting" is -1 (15-21). `AsyncRecive` ignores `recv` = 0 (436-448). Unlike the Linux client (C197) `Communicate` gives up a connection closed by the other side.
* C216: `net_init` of the Windows server adds the socket to `sst` before `bind` and `listen`, and leaves the entry there when they close it (w_tcp_cmctr.cpp 133-181). `FIONBIO` is set to 0, which is blocking, although the comments say the contrary (111, 362): with a doubled entry for the listening socket `accept` is called twice for one client and the second call never returns. `do_echo` takes its entry out of the table while the loop goes on, so the next entry waits for the next round (harmless). The same number of `WSACleanup` as of `WSAStartup` is not kept.
* C217: `ParamsRecipeManager::save_device` advances by `format_to_n(...).size`, which is the untruncated length, while at most MAX_COPY_SIZE = 1000 characters are written (params_recipe_manager.cpp 29-58): a `LIST` of more than 988 characters leaves a gap of old buffer contents in the answer, which the server then cannot parse. Names are not escaped.
* C218: `MCMD_RELOAD_WASH_STATS` (cip_tech_def.cpp 2011-2034) gives `emptystats` to every line that is not washing; a line with a chosen recipe then starts without statistics, so `ERR_ACID_WASH_REQUIRED` (1923) is not raised and the wash is not counted. The same for an object that is not yet in the file. It looks at its own `tech_type` instead of `Mdls[i]->tech_type` (2024).
* C219: `tech_object::set_err_msg` drops a message when ten wait to be acknowledged (tech_def.cpp 1287-1301), alarms too: `is_any_error` is false although an operation went to its fail state. A text of more than 599 bytes is cut at a byte, so the server may get half a character.
* C220: `initline` decides between the old and the new names by two valves, `LINE<n>V<n>00` and `LINE<n>V<n>11` (cip_tech_def.cpp 812-818). If one of them is missing or misspelt, the line silently gets stubs for everything. The names are made by `sprintf` in arrays of 20 bytes.
* C221: the panel gets 50 for a pause, 80 for an unknown step and 90 for a block (modbus_serv.cpp 524-550), but any other fault as its positive number: a project whose `cip_DoStep` returns -50, -80 or -90 shows a pause, an unknown step or a block. `SetCommand` overwrites a command which has not been evaluated (cip_tech_def.cpp 3135-3146): a reset followed by another command within one pass is lost.
* C222: `EvalCommands` takes the statistics of `ncar1` whichever of the four switches is on (cip_tech_def.cpp 1885-1901), so the limit of caustic washes is not kept for the cars at places 2 to 4. `set_cmd( "NCAR" )` exchanges `objectstats` during a wash (564-581, 652-690); the panel does not (modbus_serv.cpp 837).
* C223: registers inside a text are not written when the block begins there, so the answer has old bytes of the buffer (modbus_serv.cpp 348-398). The program name “Опол.чист.водой в канал.” has 24 characters and leaves no room for a closing zero in a field of 24 registers.
* C224: writing a coil of the station's parameters tests `objnumber < get_count()` although numbers begin with 1 (modbus_serv.cpp 739), so the last one cannot be switched by a coil; registers use `<=` (962).
* C225: `parseDriverCmd` passes the command received to `G_LOG->debug` as the format (params_recipe_manager.cpp 103). `check_file` calls `G_LOG->error( err_str, "File …", name )`: the empty `err_str` is the format (lua_manager.cpp 38), so the entry is empty, and `reload_script` gives the empty text to the server (675-676). `err_str` and `path` have 100 bytes (652-666, 682). `vsprintf` into `msg` has no limit (log.cpp 45-117).
* C226: `SetRet` looks at `ret_overrride` before the sensor (cip_tech_def.cpp 1724), so after MCMD_FORCE_RET_ON the pump is not protected. `P_RET_PUMP_SENSOR_DELAY` is compared with milliseconds (1738) although other delays are in seconds. The coils use `Mdls[line-1]` with line 0 allowed (modbus_serv.cpp 212-228).
* C227: `operation_state::evaluate` evaluates the step of the state first, then `to_step` finalises the old step (operation_mngr.cpp 2020, 2198-2201): devices in both lists are switched off until the next pass. After a jump `steps[ active_step_n ]->evaluate()` (2118) is called also for a step of duration 0, which `to_step` did not initialise (2212-2216).
* C228: `on_extra_step` adds the step to `active_steps` before `check` (operation_mngr.cpp 2479-2530), so a refused step is evaluated in the next pass. `switch_active_extra_step` replaces the number without looking whether it is in the list (2569-2611).
* C229: `operation::stop` does not add the time of RUN to `run_time` as `pause` does (operation_mngr.cpp 81-111, 50), so `evaluation_time` of a stopped operation shows only the time before its last pause. `to_run_state` starts step 1 when no step was active (201-204). `add_dx_step_time` gives back only the time of the active step (2421-2427), parallel steps begin anew.
* C230: `to_step` does not call `step::init` for a step of duration 0 (operation_mngr.cpp 2205-2215), so `start_time` is that of an earlier visit; if the parameter is set before the next pass, the step ends at once without having begun. `off_extra_step` finalises the active step if it is in the list of parallel steps too (2532-2562): `dx_time` is 0 then and its devices are switched off.
* C231: `operation_state::evaluate` reads `active_step_max_time` for the step active before a change of the step (operation_mngr.cpp 2056-2062), and `to_step` reads it again only with debug output (2216-2233). A following step with duration 0 is not begun, so that `get_latest_eval_time` counts from its last beginning or from the start of the controller: the operation is paused with a message that the skipped step has exceeded the maximal time of the step before (`C231_skipped_violated`).
* C232: `valve_iol_terminal::direct_on/direct_off` (valve.cpp 2303-2345) have no branch for the simulation: without configured channels a simulated valve of a terminal ignores every command, with them it drives the output image (`C232_terminal_ignored_violated`, `C232_terminal_output_violated`).
* C232: `valve::set_cmd` (valve.cpp 288-301) takes, in the simulation, every name that begins with F and is not FB_ON_ST for FB_OFF_ST (`C232_name_violated`); after the start a simulated valve with both feedbacks is both opened and closed.
* C232: in the simulation `is_closing_mini` of a bottom mix-proof valve is never set, so that it leaves the queue at the first evaluation and stays opened (`C232_bottom_violated`, as C47).
* Simulated Altivar motors and breakers (C233): `motor_altivar::direct_off` without modules clears `value`, but `get_value` returns `freq`, which is left (device.cpp 3757-3838); `circuit_breaker::direct_on` sets its channels only, while the simulated `get_state` returns the field `state`, which nothing but a state command changes (device.cpp 3175-3218).
* Virtual valves (C235): `virtual_valve` uses the constructor of `valve` that leaves `on_fb` and `off_fb` false, nothing sets them with modules, and `is_opened` and `is_closed` return just them: an open virtual valve is not `is_opened()`, a closed one not `is_closed()`.  The same holds for `valve_DO1` and `valve_DO2`.
* Simulated scales (C236): `tare` of `wages_RS232` and `wages_eth` is empty; `wages_RS232::get_state` returns a field of its own that no command sets; `wages_eth::direct_on` and `direct_off` call `i_iot_node::set_state`, which does nothing; `iot_wages_eth::set_wages_value` ignores weights below 0.
* Simulated power supply (C237): `power_unit::set_cmd` converts the value to `int8_t` before looking at the name of the command (128 or more is undefined) and stores it in fields of two and three bits: a channel switched on by 4 is off, a current of 10 becomes 2. The operator's command `ST` is ignored in manual mode while `ST_CH` is obeyed.
* Simulated cameras (C238): `camera::set_cmd` does not look at the index of `RESULT`, so the second result of `camera_DI3` is always 0 and a command for it changes the first one.
* Simulated temperature sensors (C239): only `temperature_e` replaces -1000 by `P_ERR_T`; the state of none of them shows the simulated fault.
* Simulated counters on IO-Link (C240): `counter_iolink::set_cmd` converts 100 times the flow and 10 times the temperature to `int16_t` without a check (undefined from 327.68 and 3276.8 on); the temperature is cut to 14 bits, so that 1000 is shown as -638.4.
