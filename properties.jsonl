{"id": "C01", "title": "Bit stream write/read round trip", "statement": "Writing n bits into a bit stream at its current position and then reading n bits from that same position returns exactly the bits that were written; every bit of the buffer outside the n written ones is unchanged and the position advances by n, whenever at least n bits of buffer remain.", "quantifier": "every buffer content and length, every starting bit position, every n that fits and every source bytes", "why_tests_cant": "Byte-straddling behaviour depends on (position mod 8, n mod 8, remaining bytes); tests exercise a handful of aligned cases while the claim is about all of them.", "anchors": ["src/common/bitstream.cpp: bitstream::edit, editN, next, nextN", "src/common/bitstream.h"]}
{"id": "C02", "title": "Bit stream reads are sequential, bounded and peek is non-consuming", "statement": "Reading n bits returns the next min(n, remaining) bits of the stream in order, advances the position by that many, never touches memory past the end of the buffer and zero-fills the rest of the destination; peeking returns the same bits and leaves the position unchanged; seeking outside the buffer is refused and leaves the position unchanged.", "quantifier": "every buffer, position and requested count, including requests longer than the buffer", "why_tests_cant": "Over-read only happens for particular position/count/length combinations; unit tests use streams that are long enough.", "anchors": ["src/common/bitstream.cpp: next, nextN, peekN, seekG, has_next"]}
{"id": "C03", "title": "Bit stream writes never leave the buffer", "statement": "Writing n bits into a bit stream never reads or writes memory outside its buffer, whatever n and the position are (excess bits are dropped and not counted).", "quantifier": "every buffer, position and n", "why_tests_cant": "The out-of-bounds access needs a write that starts at, or runs past, the end of the buffer; a native test would pass silently because the stray byte lands in adjacent memory.", "anchors": ["src/common/bitstream.cpp: edit, editN (bound check at line 171)"]}
{"id": "C04", "title": "Bit array integer conversion round trip", "statement": "Storing an unsigned integer into a bit array succeeds exactly when it fits in the array's width, in which case reading the array back as an integer returns the same value; when it does not fit the old contents are preserved.", "quantifier": "every width up to 64 bits and every 64-bit value and every previous content", "why_tests_cant": "2^64 values times 64 widths; tests sample a few.", "anchors": ["src/common/fixed_array.hpp: set_ullong, to_ullong, num_val_bits_ok"]}
{"id": "C05", "title": "Integer field serialization: clamping, error bound and stability", "statement": "Serializing an integer in a field with range [min,max] and a given bit width then deserializing yields a value inside [min,max] that differs from the clamped input by less than one resolution step, is never above the clamped input, is monotone in the input, is exact when the width holds the whole range, and re-serializing it gives the same bits.", "quantifier": "every integer range, bit width and input value", "why_tests_cant": "The quantisation error depends on all three parameters; the fields of the flight software use dozens of different ranges.", "anchors": ["src/common/SerializerTypes.inl: IntegerSerializer"]}
{"id": "C06", "title": "GPS time serialization is lossless on its documented range", "statement": "A GPS time with week number in [2000,3000] , time of week in [0,604800000] ms and nanoseconds in [-1e6,1e6] survives serialize/deserialize unchanged, and an unset time deserializes as unset.", "quantifier": "every representable GPS time", "why_tests_cant": "About 10^18 values; three sub-fields are packed at shifting offsets.", "anchors": ["src/common/SerializerTypes.inl: Serializer<gps_time_t>", "src/common/GPSTime.hpp"]}
{"id": "C07", "title": "GPS time conversion and arithmetic agree with nanosecond arithmetic", "statement": "Converting a nanosecond count to a GPS time and back is the identity for every count below 65536 weeks; adding a duration to a set time adds it to its nanosecond count; subtracting a not-later time subtracts; the < and == relations on set, normalised times agree with the order of their nanosecond counts.", "quantifier": "every nanosecond count and pair of times", "why_tests_cant": "Carry between week, time of week and nanoseconds only shows at rare values.", "anchors": ["src/common/GPSTime.hpp: gps_time_t"]}
{"id": "C08", "title": "Unset GPS times never compare as later", "statement": "Every ordering comparison involving a time that has not been set is false, so that 'is there a queued uplink later than zero' style checks cannot be satisfied by an unset time.", "quantifier": "every pair of times with at least one unset", "why_tests_cant": "The derived operators are defined by negation, so the error is in a combination of flags rarely set up in a test.", "anchors": ["src/common/GPSTime.hpp: operator>, >=, <, <=, ==", "src/fsw/FCCode/Estimators/RelativeOrbitEstimator.cpp"]}
{"id": "C09", "title": "Rejected uplink packets change nothing", "statement": "If an uplink packet is not a well-formed list of (field index, value) updates, no state field value changes, and the packet is consumed.", "quantifier": "every byte string received by the radio and every registry of writable fields", "why_tests_cant": "Arbitrary radio bytes: the space of malformed packets is unbounded.", "anchors": ["src/fsw/FCCode/UplinkConsumer.cpp: execute", "src/fsw/FCCode/UplinkCommon.cpp: _validate_packet, _update_fields"]}
{"id": "C10", "title": "Accepted uplink packets update exactly the listed fields", "statement": "If an uplink packet is accepted, then it parses as a list of distinct field indices with a full value each; each listed field ends with the value deserialized from its own bits, every other field keeps its value, and at no point is a bit beyond the packet or a field beyond the registry read.", "quantifier": "every byte string, every registry", "why_tests_cant": "Requires agreement between the validation pass and the update pass on every packet.", "anchors": ["src/fsw/FCCode/UplinkCommon.cpp: _validate_packet, _update_fields", "src/fsw/FCCode/UplinkConsumer.cpp"]}
{"id": "C11", "title": "Ground-produced uplinks are accepted and applied verbatim", "statement": "A packet produced by the ground software for any set of distinct writable fields and any bit representation of their values is accepted by the spacecraft, which then sets each named field to the value of exactly those bits and nothing else.", "quantifier": "every registry of writable fields, every non-empty selection of distinct fields and every value", "why_tests_cant": "Bit offsets depend on all earlier entries; index width depends on registry size.", "anchors": ["src/gsw/parsers/src/UplinkProducer.cpp: add_entry, create_from_json", "src/fsw/FCCode/UplinkCommon.cpp"]}
{"id": "C12", "title": "Uplink padding is at most seven zero bits", "statement": "A packet is accepted only if the bits after the last update are all zero and there are fewer than eight of them.", "quantifier": "every accepted packet", "why_tests_cant": "Only visible for particular combinations of index width and trailing length.", "anchors": ["src/fsw/FCCode/UplinkCommon.cpp: _validate_packet lines 14-61", "src/fsw/FCCode/UplinkCommon.h"]}
{"id": "C13", "title": "Downlink frame round trip", "statement": "The frame produced in a control cycle, when parsed on the ground, yields the control cycle number and, for every active flow in order, the flow id and each field's serialized bits.", "quantifier": "every flow configuration, field width and value", "why_tests_cant": "Offsets of every field depend on all previous ones and on packet boundaries every 560 bits.", "anchors": ["src/fsw/FCCode/DownlinkProducer.cpp: execute, add_bits_to_downlink_frame", "src/gsw/parsers/src/DownlinkParser.cpp: process_downlink_packet"]}
{"id": "C14", "title": "Downlink packet headers", "statement": "In every frame the bit at the start of the first packet is 1 and the bit at the start of each following 70-byte packet is 0, and no data bit is overwritten by a header bit.", "quantifier": "every frame of every length", "why_tests_cant": "Needs frames with at least two packets with specific data bits set.", "anchors": ["src/fsw/FCCode/DownlinkProducer.cpp: add_bits_to_downlink_frame", "src/gsw/parsers/src/DownlinkParser.cpp: check_is_first_packet"]}
{"id": "C15", "title": "Downlink buffer is never overrun", "statement": "Every byte written while producing a frame lies inside the buffer whose size was computed when the flows were configured, whichever flows are active.", "quantifier": "every flow configuration and activation", "why_tests_cant": "The size formula and the writer use different header accounting; they differ only for long frames.", "anchors": ["src/fsw/FCCode/DownlinkProducer.cpp: compute_downlink_size, init_flows, execute"]}
{"id": "C16", "title": "Flow activation and priority commands", "statement": "Toggling a flow flips the active status of exactly that flow and keeps the count of active flows correct; shifting priorities moves a flow past others without losing, duplicating or altering any flow; invalid commands change nothing.", "quantifier": "every flow table and command sequence", "why_tests_cant": "Histories of commands over flows with different field counts.", "anchors": ["src/fsw/FCCode/DownlinkProducer.cpp: toggle_flow, shift_flow_priorities, execute", "src/fsw/FCCode/DownlinkProducer.hpp: Flow::operator="]}
{"id": "C17", "title": "Saved fields survive a reboot", "statement": "After a reboot each field marked for persistence holds the value it had at its most recent save, for every value the field can take.", "quantifier": "every history of control cycles and every reboot point", "why_tests_cant": "Depends on save periods, value widths and crash points.", "anchors": ["src/fsw/FCCode/EEPROMControllerCommon.cpp", "src/fsw/FCCode/EEPROMControllerDesktop.cpp", "src/fsw/FCCode/EEPROMControllerTeensy.cpp", "src/common/StateFieldTypes.inl: get_eeprom_repr, set_from_eeprom"]}
{"id": "C18", "title": "Fields not yet saved keep their default after a reboot", "statement": "If the spacecraft reboots before a persistent field's first save, the field comes back with its compiled-in default, whatever else has been saved.", "quantifier": "every reboot point and set of save periods", "why_tests_cant": "Requires a crash between the first save of one field and the first save of another.", "anchors": ["src/fsw/FCCode/EEPROMControllerTeensy.cpp: read_EEPROM, check_empty", "src/fsw/FCCode/EEPROMControllerCommon.cpp"]}
{"id": "C19", "title": "Reboot never resumes an active mission state", "statement": "Whatever bytes the persistent memory holds, after boot the mission state is the startup state, docking or docked, never an attitude- or propulsion-active mission state.", "quantifier": "every persistent memory content", "why_tests_cant": "Persistent memory can hold any byte after radiation upsets.", "anchors": ["src/fsw/FCCode/EEPROMControllerDesktop.cpp", "src/fsw/FCCode/EEPROMControllerTeensy.cpp", "src/common/StateFieldTypes.inl"]}
{"id": "C20", "title": "Registry names are unique and lookups are exact", "statement": "However fields, faults and events are registered, no two readable fields, no two writable fields, no two internal fields and no two events share a name; a registration of a taken name is refused and changes nothing in that list; looking up a name returns the field registered under it and never another.", "quantifier": "every sequence of registrations", "why_tests_cant": "Order-dependent interactions between readable, writable and fault registration.", "anchors": ["src/common/StateFieldRegistry.cpp"]}
{"id": "C21", "title": "Fault trips after persistence consecutive cycles", "statement": "A fault with persistence p reports faulted exactly when it has been signalled on more than p distinct control cycles since it was last unsignalled or reset, absent ground overrides.", "quantifier": "every history of signal/unsignal calls and cycle numbers", "why_tests_cant": "Counter history across arbitrary interleavings of evaluations.", "anchors": ["src/common/Fault.cpp: signal, unsignal, evaluate, is_faulted"]}
{"id": "C22", "title": "Fault override and suppress precedence", "statement": "While override is set a fault reports faulted whatever its signals; while suppress is set and override is not it reports not faulted; setting either one anew, or commanding unsignal, restarts the count of consecutive signals.", "quantifier": "every fault state and command history", "why_tests_cant": "All combinations of three ground commands, their previous values and the counter.", "anchors": ["src/common/Fault.cpp: is_faulted, process_commands"]}
{"id": "C23", "title": "A fault counts at most once per control cycle", "statement": "Signalling a fault several times within one control cycle counts as one signal.", "quantifier": "every cycle number and number of repeated signals", "why_tests_cant": "The exception is a single cycle number that tests skip.", "anchors": ["src/common/Fault.cpp: signal"]}
{"id": "C24", "title": "Event records round trip and ring buffering", "statement": "Reading back an event record gives the cycle number and field values at the time it was signalled; an event with storage for n records always holds the last n signalled records, oldest overwritten first.", "quantifier": "every sequence of signals and data values", "why_tests_cant": "Unbounded histories against a wrapping pointer.", "anchors": ["src/common/Event.cpp", "src/common/EventStorage.cpp"]}
{"id": "C25", "title": "Main fault handler takes the most severe response", "statement": "With fault handling enabled, the overall response is safehold exactly when some handler reached asks for safehold, otherwise standby exactly when some handler asks for standby, otherwise none; with it disabled the response is none and no handler runs.", "quantifier": "every combination of handler responses", "why_tests_cant": "Early return interacts with handlers that have side effects.", "anchors": ["src/fsw/FCCode/MainFaultHandler.cpp: execute", "src/fsw/FCCode/SimpleFaultHandler.cpp"]}
{"id": "C26", "title": "Simple faults only act in their mission states", "statement": "A simple fault produces its response exactly when the fault is tripped and the mission state is one in which that severity level is active.", "quantifier": "every mission state, fault state and severity level", "why_tests_cant": "Product of twelve mission states, four severities and fault states.", "anchors": ["src/fsw/FCCode/SimpleFaultHandler.cpp: execute, active_state lists"]}
{"id": "C27", "title": "Radio fault ladder", "statement": "With no radio contact the fault handler moves forced standby -> three power cycles -> safehold, staying at least a day (then a third of a day each) in each step, never skipping a step, and commands exactly one radio power cycle at each of the three power-cycle entries.", "quantifier": "every history of contact times, radio states and cycle counts", "why_tests_cant": "Takes days of simulated time and wraps with the cycle counter.", "anchors": ["src/fsw/FCCode/QuakeFaultHandler.cpp"]}
{"id": "C28", "title": "Radio contact clears the radio fault", "statement": "If there has been contact within the last day the handler returns to unfaulted and asks for no response within one cycle, unless a step deadline expires in that very cycle.", "quantifier": "every handler state and time", "why_tests_cant": "Deadline and recovery conditions race.", "anchors": ["src/fsw/FCCode/QuakeFaultHandler.cpp"]}
{"id": "C29", "title": "GPS fault handler response", "statement": "The GPS fault handler never asks for safehold. It asks for standby exactly when the receiver has delivered no data for more than four hours' worth of consecutive handled cycles (outside startup, detumbling and initialization hold), or when the satellite is in a close-approach state and has gone without a fixed RTK solution for longer than a day since entering it (if there was none since) or longer than three hours since the last one.", "quantifier": "every history of GPS states, mission states and close-approach entry cycles, of any length, from construction", "why_tests_cant": "Long histories of per-cycle sensor states.", "anchors": ["src/fsw/FCCode/PiksiFaultHandler.cpp"]}
{"id": "C30", "title": "Propulsion fault handling", "statement": "The propulsion fault handler requests standby exactly while the controller is dealing with a tank fault, the right tank is vented, with both tanks faulted venting alternates and is given up after the budget is used, and the shared venting budget is given back when it is done.", "quantifier": "every history of tank temperature, pressure and pressurise faults", "why_tests_cant": "Interaction of three fault sources with a shared vent budget over time.", "anchors": ["src/fsw/FCCode/PropFaultHandler.cpp", "src/fsw/FCCode/PropFaultHandler.h", "src/fsw/FCCode/PropController.cpp"]}
{"id": "C31", "title": "Safehold response wins immediately", "statement": "In every mission state other than startup and manual, a safehold fault response puts the spacecraft in safehold in that same cycle with attitude control in its startup (passive) state, propulsion disabled and the satellite designation cleared.", "quantifier": "every mission manager state and every input", "why_tests_cant": "Product of all mission states and sensor inputs.", "anchors": ["src/fsw/FCCode/MissionManager.cpp: execute, transition_to"]}
{"id": "C32", "title": "No autonomous exit from safehold", "statement": "Once in safehold, the mission manager leaves it only by ground command or reboot, over any sequence of cycles.", "quantifier": "every sequence of inputs without a ground write", "why_tests_cant": "Unbounded histories.", "anchors": ["src/fsw/FCCode/MissionManager.cpp: dispatch_safehold, execute"]}
{"id": "C33", "title": "Standby response", "statement": "A standby response moves the spacecraft to standby with standby pointing and clears its designation in every mission state except startup, manual, safehold, detumble, initialization hold and standby itself, where it has no effect.", "quantifier": "every mission manager state", "why_tests_cant": "Product of mission states and fault responses.", "anchors": ["src/fsw/FCCode/MissionManager.cpp: execute"]}
{"id": "C34", "title": "Deployment wait is honoured across reboots", "statement": "The spacecraft leaves startup only after the full deployment wait has elapsed in total over all boots, or deployment has been recorded.", "quantifier": "every history of cycles and reboots", "why_tests_cant": "Requires reboots at arbitrary points in the wait.", "anchors": ["src/fsw/FCCode/MissionManager.cpp: dispatch_startup", "src/fsw/FCCode/EEPROMControllerCommon.cpp"]}
{"id": "C35", "title": "Docking attempt times out relative to its own start", "statement": "The spacecraft stays in the docking state for at most the docking timeout counted from the cycle it entered docking, and is not timed out earlier.", "quantifier": "every history including docking attempts interrupted by faults", "why_tests_cant": "Needs two docking attempts with an interrupted first one.", "anchors": ["src/fsw/FCCode/MissionManager.cpp: dispatch_docking"]}
{"id": "C36", "title": "Safehold lasting a day reboots the spacecraft", "statement": "If the spacecraft stays in safehold for a day, the power system is commanded to reset.", "quantifier": "every history in safehold", "why_tests_cant": "508235 cycles with faults coming and going.", "anchors": ["src/fsw/FCCode/MissionManager.cpp: dispatch_safehold, transition_to"]}
{"id": "C37", "title": "Thrusters fire only from the armed state on schedule", "statement": "The propulsion controller enters firing only from the awaiting-firing state when the commanded countdown has expired, the schedule is valid and the system is functional; thrust valves are opened only while firing on the schedule, when venting tank 2, and by ground command in the manual state.", "quantifier": "every controller state, command and history", "why_tests_cant": "State machine with ground-writable inputs.", "anchors": ["src/fsw/FCCode/PropController.cpp"]}
{"id": "C38", "title": "Pressurising and venting are bounded", "statement": "A pressurising attempt opens the tank-1 valve at most the maximum number of times, each for at most its filling period, and then ends awaiting firing at threshold pressure, in fault handling, or (deadline near, schedule no longer valid, hardware not functional, fault response masked) idle, disabled or awaiting firing; venting opens valves at most the commanded number of times.", "quantifier": "every pressure/temperature history in which nobody but the controller moves the propulsion state, except to disable it", "why_tests_cant": "Bound over arbitrary sensor histories.", "anchors": ["src/fsw/FCCode/PropController.cpp: PropState_Pressurizing, PropState_Venting"]}
{"id": "C39", "title": "Disabling propulsion closes everything", "statement": "In the cycle in which the propulsion state is disabled, all valves end up closed and the firing schedule is cleared.", "quantifier": "every propulsion state", "why_tests_cant": "All prior states.", "anchors": ["src/fsw/FCCode/PropController.cpp", "src/fsw/FCCode/Drivers/PropulsionSystem.cpp"]}
{"id": "C40", "title": "Valve open time never exceeds the schedule", "statement": "Once firing starts, each thrust valve is open for at most its scheduled time (in 3 ms ticks), never reopens, at most one valve opens per tick, and after finitely many ticks all valves are closed; the schedule cannot be changed while firing.", "quantifier": "every schedule and number of ticks", "why_tests_cant": "Interrupt-driven ticks; every schedule.", "anchors": ["src/fsw/FCCode/Drivers/PropulsionSystem.cpp: thrust_valve_loop, set_schedule, start_firing"]}
{"id": "C41", "title": "Accepted firing schedules are executed", "statement": "A schedule the propulsion controller validates and arms is accepted by the valve driver when it is time to fire.", "quantifier": "every schedule", "why_tests_cant": "Only one boundary value per valve disagrees.", "anchors": ["src/fsw/FCCode/PropController.cpp: validate_schedule", "src/fsw/FCCode/Drivers/PropulsionSystem.cpp: set_schedule"]}
{"id": "C42", "title": "Radio manager never hangs in a state", "statement": "From any radio state other than disabled, the radio manager moves to another state at most one cycle after its maximum number of cycles there (waiting also lasts while the radio is being power-cycled), whatever the modem answers; errors always lead back to configuration through waiting.", "quantifier": "every sequence of modem responses and cycle numbers", "why_tests_cant": "Adversarial modem.", "anchors": ["src/fsw/FCCode/QuakeManager.cpp", "src/fsw/FCCode/QuakeControlTask.cpp"]}
{"id": "C43", "title": "Modem commands are issued in protocol order", "statement": "The sequence of modem calls in any state follows the documented command sequence of that state; a step is repeated until it succeeds and never skipped.", "quantifier": "every modem response sequence", "why_tests_cant": "Adversarial modem.", "anchors": ["src/fsw/FCCode/QuakeControlTask.cpp"]}
{"id": "C44", "title": "Every byte of a snapshot is downlinked", "statement": "Successive successful transmissions send successive 70-byte packets covering the whole telemetry snapshot before a new snapshot is taken, and never read outside the snapshot buffer.", "quantifier": "every snapshot size and transmission history", "why_tests_cant": "Depends on snapshot size modulo 70.", "anchors": ["src/fsw/FCCode/QuakeManager.cpp: dispatch_write, copy_next_packet, copy_next_snapshot, init"]}
{"id": "C45", "title": "Received messages are length- and checksum-checked", "statement": "A modem message is delivered to the uplink consumer only if its announced length fits the buffer and its two-byte checksum equals the 16-bit sum of its bytes.", "quantifier": "every byte sequence from the modem", "why_tests_cant": "Arbitrary serial input.", "anchors": ["src/fsw/FCCode/Drivers/QLocate.cpp: get_sbdrb, checksum"]}
{"id": "C46", "title": "Power cycling an output", "statement": "A power-cycle command for an output turns it off, then on again, then clears itself, over successive cycles, leaving other outputs alone.", "quantifier": "every output state and command combination", "why_tests_cant": "Combination of commands over cycles.", "anchors": ["src/fsw/FCCode/GomspaceController.cpp: execute, power_cycle_outputs"]}
{"id": "C47", "title": "Power supply voltages are sent big-endian", "statement": "Multi-byte values in power-supply commands are transmitted most significant byte first, as the device requires.", "quantifier": "every 16-bit value", "why_tests_cant": "65536 values and byte order of the host; palindromic values hide it.", "anchors": ["src/fsw/FCCode/Drivers/Gomspace.cpp: set_pv_volt, set_single_output"]}
{"id": "C48", "title": "DC-DC converter command protocol", "statement": "The DC-DC outputs follow their commanded values each cycle; disable turns both off and clears itself; reset turns both off for one cycle then on.", "quantifier": "every command history", "why_tests_cant": "Histories of one-shot commands.", "anchors": ["src/fsw/FCCode/DCDCController.cpp", "src/fsw/FCCode/Drivers/DCDC.cpp"]}
{"id": "C49", "title": "Docking motor turns exactly half a turn per command change", "statement": "Each change of commanded docking configuration turns the motor through exactly one half turn before the reported configuration changes.", "quantifier": "every history of command changes", "why_tests_cant": "Command changes in mid-turn.", "anchors": ["src/fsw/FCCode/DockingController.cpp", "src/fsw/FCCode/Drivers/DockingSystem.cpp"]}
{"id": "C50", "title": "Magnetorquer commands are clamped to the limit", "statement": "The moment commanded to each magnetic torque rod lies within plus or minus the configured limit.", "quantifier": "every commanded moment and limit", "why_tests_cant": "Continuous inputs; only one side is wrong.", "anchors": ["src/adcs/mtr.cpp: actuate"]}
{"id": "C51", "title": "Device reset and disable commands are independent", "statement": "A ground command to reset a device resets it and a command to disable a device disables it, each exactly once; commanding a reset of one device and a disable of another in the same cycle does not disable the first.", "quantifier": "every combination of reset and disable commands", "why_tests_cant": "2^38 combinations.", "anchors": ["src/fsw/FCCode/ADCSBoxController.cpp: execute", "src/adcs/havt.cpp"]}
{"id": "C54", "title": "Estimator validity chain", "statement": "The orbit estimate is valid only if the time estimate is; the relative orbit and attitude estimates are valid only if both are; a reset command invalidates its estimate in that cycle.", "quantifier": "every history of sensor modes and commands", "why_tests_cant": "Unbounded histories.", "anchors": ["src/fsw/FCCode/Estimators/TimeEstimator.cpp", "src/fsw/FCCode/Estimators/OrbitEstimator.cpp", "src/fsw/FCCode/Estimators/RelativeOrbitEstimator.cpp", "src/fsw/FCCode/Estimators/AttitudeEstimator.cpp"]}
{"id": "C55", "title": "Valve impulses are non-negative and produce the requested impulse", "statement": "The impulses assigned to the four thrust valves are all non-negative and combine to the commanded impulse direction.", "quantifier": "every commanded impulse", "why_tests_cant": "Continuous inputs.", "anchors": ["src/fsw/FCCode/OrbitController.cpp: schedule_valves, impulse_to_time"]}
{"id": "C56", "title": "Fault to actuator shut-down within one cycle", "statement": "If a safehold-level fault is reported in a control cycle while the mission state is neither startup nor manual, then by the end of that same control cycle the propulsion system is disabled with all valves closed and the attitude box has been commanded passive.", "quantifier": "every spacecraft state", "why_tests_cant": "Composition of five control tasks in the loop order.", "anchors": ["src/fsw/FCCode/MainControlLoop.cpp: execute", "src/fsw/FCCode/MissionManager.cpp", "src/fsw/FCCode/PropController.cpp", "src/fsw/FCCode/ADCSBoxController.cpp"]}
{"id": "C57", "title": "Decoded field values stay inside the documented range", "statement": "Whatever bit pattern arrives for a field (from an uplink or from a neighbouring bit stream), the integer value decoded from it lies inside the field's documented range [min,max].", "quantifier": "every integer field (type, range, width) and every bit pattern of that width", "why_tests_cant": "Tests decode bit patterns they have themselves encoded from in-range values; the claim is about patterns nobody encoded.", "anchors": ["src/common/SerializerTypes.inl: IntegerSerializer::deserialize, _resolution", "src/common/Serializer.hpp: set_bit_array"]}
{"id": "C58", "title": "The radio is switched back on after a ladder power cycle", "statement": "When the radio-silence ladder power-cycles the radio (it disables the radio for one control cycle), the radio is enabled again in the next control cycle.", "quantifier": "every reachable ladder state, every comms history, and every combination of other faults", "why_tests_cant": "The tests run the radio fault handler alone in every cycle; whether it runs in the cycle after the power cycle depends on all the other fault handlers and on the mission state.", "anchors": ["src/fsw/FCCode/QuakeFaultHandler.cpp: dispatch_powercycle_1..3", "src/fsw/FCCode/MainFaultHandler.cpp: execute"]}
{"id": "C59", "title": "No reset before a full day in safehold", "statement": "The power system is commanded to reset by the safehold watchdog only when the spacecraft has been in safehold for a full day.", "quantifier": "every history, including safehold commanded by the ground", "why_tests_cant": "Depends on how and when safehold was entered, at any point of an unbounded history.", "anchors": ["src/fsw/FCCode/MissionManager.cpp: dispatch_safehold, set(mission_state_t)"]}
{"id": "C60", "title": "The mission state moves only along the documented transitions", "statement": "By itself (without ground commands) the spacecraft changes its mission state only along the documented transitions and only when the transition's condition holds; and in a cycle without faults a transition whose condition holds is made.", "quantifier": "every mission manager state, every input", "why_tests_cant": "The tests try one transition at a time from hand-built states.", "anchors": ["src/fsw/FCCode/MissionManager.cpp: execute, dispatch_*"]}
{"id": "C61", "title": "Kill switch", "statement": "Setting the kill switch stops the flight computer's control loop in the next cycle in which the spacecraft is in startup, and nothing else ever stops it; after a reboot a spacecraft whose saved kill switch is set stops again.", "quantifier": "every history of cycles and reboots", "why_tests_cant": "The stop is an endless loop, which a test cannot observe, and it interacts with the saved state at any reboot.", "anchors": ["src/fsw/FCCode/MissionManager.cpp: dispatch_startup", "src/fsw/FCCode/EEPROMControllerCommon.cpp"]}
{"id": "C62", "title": "The radio comes on after every boot", "statement": "After any boot, once the deployment wait is over, the radio is enabled without help from the ground.", "quantifier": "every persistent memory content, every history of cycles after the boot", "why_tests_cant": "Depends on the saved mission state at the reboot and must hold for unbounded time afterwards.", "anchors": ["src/fsw/FCCode/MissionManager.cpp: dispatch_startup", "src/fsw/FCCode/QuakeFaultHandler.cpp: dispatch_unfaulted", "src/fsw/FCCode/QuakeManager.cpp: constructor, dispatch_disabled"]}
{"id": "C63", "title": "A mission transition configures the spacecraft in the same cycle", "statement": "Whenever the mission manager moves to a new mission state by itself, in the same cycle the attitude-control mode is the one documented for the new state, the GPS-wait and safehold timers restart with close approach and safehold, the designation is cleared on docking and on faults and kept otherwise, deployment is recorded when startup ends in detumbling, propulsion is idle and its converter and the GPS receiver are on when startup ends; in cycles without a transition none of these change.", "quantifier": "every mission-manager state, fault state, ground setting and sensor input", "why_tests_cant": "Product of twelve mission states, all fault and sensor states and all previous field values.", "anchors": ["src/fsw/FCCode/MissionManager.cpp: execute, transition_to, set, dispatch_*"]}
{"id": "C64", "title": "The radio is switched back on after a power cycle", "statement": "Whenever radio fault handling switches the radio off to power-cycle it, the radio is configuring again in the next control cycle and is sent the first configuration command.", "quantifier": "every state of mission manager, fault handlers and radio manager, every fault, ground and modem input in the two cycles", "why_tests_cant": "The radio is switched on in a one-cycle window by a handler that other handlers can pre-empt; needs all fault combinations and unbounded time afterwards.", "anchors": ["src/fsw/FCCode/QuakeFaultHandler.cpp: dispatch_powercycle", "src/fsw/FCCode/MainFaultHandler.cpp: execute", "src/fsw/FCCode/QuakeManager.cpp: dispatch_disabled, dispatch_config"]}
{"id": "C65", "title": "Power supply readings are what the supply sent", "statement": "After every cycle in which the power supply answers, each published voltage, current, temperature, counter and output state equals the value the supply sent in its answer, most significant byte first; if it does not answer, the published readings stay as they were.", "quantifier": "every answer of the power supply, every previous state", "why_tests_cant": "Every byte of a 130-byte answer, in a struct with mixed field widths that is byte-swapped in place.", "anchors": ["src/fsw/FCCode/Drivers/Gomspace.cpp: get_hk", "src/fsw/FCCode/GomspaceController.cpp: execute"]}
{"id": "C66", "title": "The heater is switched only on command", "statement": "The battery heater is switched on or off only in response to a heater command from the ground.", "quantifier": "every history of cycles, commands and answers of the power supply", "why_tests_cant": "Depends on error codes of the driver in the first cycle.", "anchors": ["src/fsw/FCCode/GomspaceController.cpp: execute", "src/fsw/FCCode/Drivers/Gomspace.cpp: get_heater, set_heater"]}
{"id": "C68", "title": "One-shot power supply commands are executed exactly once", "statement": "A counter reset, reset or reboot command given by the ground is sent to the power supply exactly once and is then withdrawn.", "quantifier": "every state, every combination of commands, every answer of the supply", "why_tests_cant": "Combinations of commands over cycles.", "anchors": ["src/fsw/FCCode/GomspaceController.cpp: execute", "src/fsw/FCCode/Drivers/Gomspace.cpp: reset_counters, hard_reset, reboot"]}
{"id": "C70", "title": "The power supply task accepts every ground setting", "statement": "For every value the ground can write into the power supply fields, the task completes its cycle.", "quantifier": "every ground-writable value, every state", "why_tests_cant": "All 32-bit values of the period.", "anchors": ["src/fsw/FCCode/GomspaceController.cpp: execute"]}
{"id": "C69", "title": "The GPS receiver is held off on command", "statement": "While the GPS receiver is commanded off, every cycle sends exactly one switching command to its output, the one that switches it off, whatever power-cycle commands are pending.", "quantifier": "every state of the task, every answer of the supply", "why_tests_cant": "Every combination with power-cycle commands of the same output.", "anchors": ["src/fsw/FCCode/GomspaceController.cpp: execute, power_cycle_outputs"]}
{"id": "C67", "title": "Low battery is reported", "statement": "The low-battery fault is reported exactly when two consecutive battery readings were below the threshold.", "quantifier": "every history of readings, good and failed, from construction on", "why_tests_cant": "Unbounded histories with readings that fail.", "anchors": ["src/fsw/FCCode/GomspaceController.cpp: execute", "src/fsw/FCCode/GomspaceController.hpp: low_batt_fault"]}
{"id": "C71", "title": "Modem answers are checked and errors reported", "statement": "A modem command counts as accepted, and the next one is issued, only if the modem gave exactly the documented answer and everything could be written to it; the published radio error code is that of the last command that failed, or the time-out code.", "quantifier": "every history of the radio, every byte the modem sends", "why_tests_cant": "All answers of an unreliable modem at every step of four command sequences.", "anchors": ["src/fsw/FCCode/Drivers/QLocate.cpp: consume, get_sbdwb, get_sbdix", "src/fsw/FCCode/QuakeManager.cpp: handle_err"]}
{"id": "C72", "title": "Contacts are recorded", "statement": "The time of the last contact with ground is set to the current cycle exactly in the cycles in which the modem reports a successful session, and never otherwise.", "quantifier": "every history of the radio, other tasks and ground writes", "why_tests_cant": "The silence timers of the fault handling depend on it over days.", "anchors": ["src/fsw/FCCode/QuakeManager.cpp: dispatch_transceive", "src/fsw/FCCode/QuakeManager.h: last_checkin_cycle_f"]}
{"id": "C52", "title": "Attitude actuation follows the attitude state", "statement": "In the startup attitude state the attitude box is commanded passive with zero torque and moment commands; in the limited, detumble and zero-angular-momentum states the wheels are commanded disabled; apart from the manual state, in which the ground's settings are sent as they are, only the pointing states command wheel torques. The torque and moment that arrive in the box are those the attitude controller asked for, up to the resolution of the bus format.", "quantifier": "every attitude state, estimate, controller output and previous command", "why_tests_cant": "Every state and every previous command value.", "anchors": ["src/fsw/FCCode/AttitudeController.cpp: execute", "src/fsw/FCCode/ADCSCommander.cpp: execute", "src/fsw/FCCode/ADCSBoxController.cpp: execute", "src/fsw/FCCode/Drivers/ADCS.cpp", "src/adcs/utl/convert.inl", "src/adcs/mtr.cpp: actuate", "src/adcs/rwa.cpp: actuate"]}
{"id": "C73", "title": "Commands are taken over whole and at most once by the attitude box", "statement": "Whatever the interleaving of bus interrupts with the main loop of the attitude control box, an actuation of the rods or the wheels or the execution of a device table uses a vector or table exactly as one message carried it, never a mixture of two, and there are never more actuations than commands were received. A command in the registers when the main loop reaches its part of the pass is carried out.", "quantifier": "every interleaving of messages and main-loop steps, every message", "why_tests_cant": "Interrupts can arrive between any two reads of the main loop.", "anchors": ["src/adcs/state_controller.cpp", "src/adcs/state_registers.hpp", "src/adcs/main.cpp: update_rwa, update_mtr, update_havt"]}
{"id": "C74", "title": "The attitude box never converts a number out of range", "statement": "No sequence of bus messages makes the attitude control box convert a floating point number outside the range of the integer it is stored in (undefined behaviour).", "quantifier": "every sequence and interleaving of messages", "why_tests_cant": "All message contents and interleavings.", "anchors": ["src/adcs/rwa.cpp: actuate", "src/adcs/utl/convert.inl"]}
{"id": "C75", "title": "Disabling the reaction wheels stops them", "statement": "When the flight computer commands the wheels disabled, as it does in the limited, detumble and zero-angular-momentum states, the box stops every wheel that is in service.", "quantifier": "every state of the box, every later sequence of messages", "why_tests_cant": "Unbounded histories and interleavings.", "anchors": ["src/adcs/state_controller.cpp", "src/adcs/rwa.cpp: actuate", "src/fsw/FCCode/ADCSCommander.cpp: execute", "src/fsw/FCCode/Drivers/ADCS.cpp: set_rwa_mode"]}
{"id": "C76", "title": "A passive attitude box drives nothing", "statement": "When the flight computer commands the box passive, as it does in the startup attitude state that safehold selects, the box stops driving rods and wheels and performs no further actuation until it is made active again.", "quantifier": "every state of the box, every later sequence of messages", "why_tests_cant": "Unbounded histories and interleavings.", "anchors": ["src/adcs/main.cpp: loop", "src/fsw/FCCode/ADCSBoxController.cpp: execute", "src/fsw/FCCode/MissionManager.cpp: dispatch_safehold"]}
{"id": "C77", "title": "Devices of the attitude box stay out of service until reset", "statement": "A device of the attitude control box that was ordered out of service is not in service and not driven until it is ordered back, whatever else is commanded; rods, wheels and heater are in service exactly as last ordered; the table the box reports is the state of the devices.", "quantifier": "every history of messages, hardware behaviour and interleavings", "why_tests_cant": "Unbounded histories.", "anchors": ["src/adcs/havt.cpp", "src/adcs/dev/Device.hpp", "src/adcs/dev/Magnetorquer.cpp", "src/adcs/dev/MaxonEC45.cpp", "src/adcs/dev/AD5254.cpp"]}
{"id": "C78", "title": "Pointing torques need valid estimates", "statement": "A wheel torque or magnetic moment for pointing is commanded only in a cycle in which attitude, magnetic field, time and orbit estimates are all valid, and it is then the pointing law's answer for the objectives of the selected pointing state.", "quantifier": "every estimate history", "why_tests_cant": "Validity of four estimates over unbounded histories.", "anchors": ["src/fsw/FCCode/AttitudeController.cpp: execute, calculate_pointing_objectives, calculate_pointing_controller"]}
{"id": "C79", "title": "The solar-array tracker mode and converter voltages follow the ground command", "statement": "In every control cycle in which the power supply answers, a mode change is sent to it exactly when the commanded tracker mode is valid and differs from the reported one, and converter voltages are sent exactly when the supply reports fixed-voltage mode and a measured voltage differs from the commanded one; what is sent is what was commanded.", "quantifier": "every state of the power supply and every commanded value", "why_tests_cant": "All combinations of reported and commanded values.", "anchors": ["src/fsw/FCCode/GomspaceController.cpp: execute", "src/fsw/FCCode/Drivers/Gomspace.cpp: set_ppt_mode, set_pv_volt"]}
{"id": "C80", "title": "The gyroscope heater follows the last temperature reading", "statement": "While the gyroscope heater of the attitude box is driven, the heater is in service and the last temperature read was below the target commanded at that time; every reading is acted on at once; with gyroscope or heater out of service the heater is off from the next pass on. It should also not heat on when no readings arrive.", "quantifier": "every sequence of bus messages, readings, device failures and device orders", "why_tests_cant": "Unbounded histories of readings and failures.", "anchors": ["src/adcs/imu.cpp: update_gyr", "src/adcs/main.cpp: update_imu", "src/adcs/dev/GyroHeaterTransistor.cpp"]}
{"id": "C81", "title": "Wheel commands are carried out with the right size and direction", "statement": "After an actuation in torque control every wheel in service is set to the component of the commanded torque along its axis, in size up to the resolution of the potentiometer and in direction; after an actuation in speed control a wheel turns in the commanded direction.", "quantifier": "every command in range, every wheel, every state of the devices", "why_tests_cant": "Every real-valued command; rounding.", "anchors": ["src/adcs/rwa.cpp: actuate", "src/adcs/dev/MaxonEC45.cpp: actuate", "src/adcs/dev/AD5254.cpp", "src/adcs/utl/convert.inl"]}
{"id": "C53", "title": "GPS readings are published atomically", "statement": "Position, velocity and time fields change only in a cycle whose GPS mode is a valid fix, and then all come from messages received in that cycle, with the same time of week, from at least four satellites and at most 100 ms old; in any other mode they keep their previous values and the mode tells why. What a working receiver sends in one epoch is exactly what is published.", "quantifier": "every sequence of bytes on the serial line, cut in any way into control cycles, and every age", "why_tests_cant": "All error codes, message combinations and byte streams.", "anchors": ["src/fsw/FCCode/PiksiControlTask.cpp: execute", "src/fsw/FCCode/Drivers/Piksi.cpp: read_all, get_gps_time, get_pos_ecef, get_vel_ecef, get_baseline_ecef"]}
{"id": "C82", "title": "Only intact messages of the GPS receiver are delivered, and noise does not stop it", "statement": "The decoder of the receiver's binary protocol never leaves its memory and always comes to an end; what it delivers does not depend on how the bytes are cut into reads; every intact message is delivered exactly once with its payload, also between stretches of noise, and after any garbage at most 264 bytes later; nothing is delivered whose checksum does not match; every damage of up to 16 consecutive bits or of an odd number of bits of a message is found out; and a message sent is the same frame a receiver decodes.", "quantifier": "every byte stream, every cutting of it into reads, every message and every error pattern of the stated kinds", "why_tests_cant": "All byte streams; checksum algebra.", "anchors": ["lib/common/libsbp/src/sbp.c: sbp_process, sbp_send_message", "lib/common/libsbp/src/edc.c: crc16_ccitt", "src/fsw/FCCode/Drivers/Piksi.cpp: process_buffer, _uart_read"]}
{"id": "C83", "title": "The age of GPS data is the time since its packet began", "statement": "The age published with the GPS data is, in microseconds, the time since the packet in the receive buffer began, where a packet begins with the first bytes after a silence of more than 10 ms.", "quantifier": "every history of arriving bytes, timer ticks and reads", "why_tests_cant": "Unbounded interleavings of an interrupt with the control task; counter wrap-around.", "anchors": ["src/fsw/FCCode/Drivers/Piksi.cpp: check_bytes, read_all"]}
{"id": "C84", "title": "GPS velocity and baseline are published in metres", "statement": "The published velocity and baseline are those of the receiver, in metres per second and metres.", "quantifier": "every fix", "why_tests_cant": "Every value.", "anchors": ["src/fsw/FCCode/Drivers/Piksi.cpp: get_vel_ecef, get_baseline_ecef", "lib/common/libsbp/include/libsbp/navigation.h: msg_vel_ecef_t, msg_baseline_ecef_t", "src/fsw/FCCode/PiksiControlTask.cpp: PiksiControlTask::PiksiControlTask"]}
{"id": "C85", "title": "The time estimate is the last fix plus the time since", "statement": "The time estimate is valid exactly when there was a GPS fix since power-up and since the last reset; it is then the time of the last fix, plus its age, plus 170 ms for every control cycle since, with no error of carry at second or week boundaries.", "quantifier": "every history of GPS modes, times, ages and resets", "why_tests_cant": "Unbounded histories; every carry.", "anchors": ["src/fsw/FCCode/Estimators/TimeEstimator.cpp: execute", "src/common/GPSTime.hpp: operator+="]}
{"id": "C86", "title": "An uplinked orbit of the other satellite is used when it is due", "statement": "An orbit of the other satellite uplinked for a time that is still ahead waits, and is used in the first cycle past its time, propagated from its time to the present; one whose time is past, or 340 ms past when it comes up, or later than one already waiting, is ignored; an earlier one takes the place of the waiting one.", "quantifier": "every uplinked time, every queue, every history of cycles in between", "why_tests_cant": "All orders of uplink and cycle times.", "anchors": ["src/fsw/FCCode/Estimators/RelativeOrbitEstimator.cpp: execute"]}
{"id": "C87", "title": "The relative orbit estimate rests on recent baselines", "statement": "Whenever the relative orbit is reported as estimated, a fixed baseline was received within the last 5002 cycles; and the two baselines an estimate starts from are taken with the time that really passed between them.", "quantifier": "every history of GPS modes and resets", "why_tests_cant": "Unbounded histories.", "anchors": ["src/fsw/FCCode/Estimators/RelativeOrbitEstimator.cpp: execute"]}
{"id": "C88", "title": "A reset forgets", "statement": "After a reset of an estimator its later outputs depend only on the inputs since the reset: two satellites with different pasts that are reset in the same cycle report the same from then on, given the same inputs.", "quantifier": "every pair of histories before the reset and every continuation", "why_tests_cant": "Pairs of unbounded histories.", "anchors": ["src/fsw/FCCode/Estimators/TimeEstimator.cpp", "src/fsw/FCCode/Estimators/OrbitEstimator.cpp", "src/fsw/FCCode/Estimators/RelativeOrbitEstimator.cpp", "src/fsw/FCCode/Estimators/AttitudeEstimator.cpp"]}
{"id": "C89", "title": "The magnetic field comes from a working magnetometer, and loss of attitude is reported", "statement": "The magnetic field is valid exactly when a magnetometer works, and is the reading of a working one (the preferred one if it works), corrected for the rods as commanded in the cycle before; the attitude fault is reported exactly when the attitude has not been valid for 151 cycles or more.", "quantifier": "every history of readings, functional flags, settings and commands", "why_tests_cant": "Unbounded histories.", "anchors": ["src/fsw/FCCode/Estimators/AttitudeEstimator.cpp: execute, _execute"]}
{"id": "C90", "title": "Orbit control acts only when it may", "statement": "The open times of the thrusters, the commanded impulse and the countdown to the firing change only in cycles in which time, orbit, relative orbit and attitude are all valid and the mission is in one of the follower states. The countdown moreover changes only while the propulsion controller is idle, and then is the number of whole cycles to the nearest node ahead. The smoothed relative orbit starts afresh after each gap.", "quantifier": "every state, every input, every library of orbit functions and every rounding", "why_tests_cant": "Unbounded histories and continuous inputs.", "anchors": ["src/fsw/FCCode/OrbitController.cpp: execute, time_till_node, calculate_impulse"]}
{"id": "C91", "title": "Tasks start at their planned times", "statement": "In every control cycle the seventeen timed control tasks run in order, none before its planned offset from the start of the cycle, wherever the 32-bit microsecond clock wraps; consecutive cycles begin at least 169.9 ms apart; a task is counted as late exactly when it becomes ready after its planned start; if every task finishes within its allotted time, every task starts on time to within one reading of the clock, and no lateness is counted; the published cycle duration is the time between the ends of consecutive cycles.", "quantifier": "every initial time, every sequence of cycles and every duration of every piece of code in them", "why_tests_cant": "Timing depends on unbounded histories of execution times and on the phase of a wrapping clock; a test sees one schedule on one host.", "anchors": ["src/fsw/FCCode/TimedControlTask.hpp: TimedControlTask, wait_until_time, execute_on_time", "src/fsw/FCCode/ClockManager.cpp: execute", "src/fsw/FCCode/MainControlLoop.cpp: execute"]}
{"id": "C92", "title": "Box settings arrive as commanded", "statement": "After the attitude control box has received the messages of one control cycle, its filter constants, moment limit, rod mode, heater target and heater power are those in the flight computer's command fields, up to the resolution of the bus format, whatever state the box was in and however its main loop interleaves with the messages.", "quantifier": "every value of the settings within range, every state of the box, every interleaving of messages and main-loop steps", "why_tests_cant": "The encodings are inverse only up to rounding at every value, and the interrupt routine interleaves with the main loop; a test picks a few values and no interleaving.", "anchors": ["src/fsw/FCCode/ADCSBoxController.cpp: execute", "src/fsw/FCCode/Drivers/ADCS.cpp: set_mtr_limit, set_imu_gyr_temp_desired and the other setters", "src/adcs/state_controller.cpp: on_i2c_recieve"]}
{"id": "C93", "title": "Wheel readings are current and true", "statement": "The wheel speeds the flight computer reads from the attitude control box are the speeds the wheels last reported, in the body frame, to the resolution of the bus format, and every request for them is answered.", "quantifier": "every history of messages, main-loop steps, converter values and converter failures", "why_tests_cant": "Whether a reading is fresh depends on the history of commands and the wheel mode, and whether it can be encoded depends on every possible value and on failed converters; tests read one value in one mode.", "anchors": ["src/adcs/rwa.cpp: update_sensors", "src/adcs/main.cpp: update_rwa", "src/adcs/state_controller.cpp: on_i2c_request", "src/fsw/FCCode/Drivers/ADCS.cpp: get_rwa"]}
{"id": "C94", "title": "Magnetic field and rate readings are true", "statement": "In every history from power-up, every request for the inertial readings is answered, and what the flight computer decodes is what each magnetometer and the gyroscope last measured, in the body frame, to 1.1 steps of the sixteen-bit format.", "quantifier": "every history of messages, main-loop steps, sixteen-bit sensor values, sensor failures and filter settings; for the accuracy, the default filter setting", "why_tests_cant": "The chain of float roundings, filters and conversions must stay in range and accurate for all 2^16 values per axis and after every history of filter settings; a test tries a few values.", "anchors": ["src/adcs/imu.cpp: update_mag1, update_mag2, update_gyr", "src/adcs/main.cpp: update_imu", "src/adcs/state_controller.cpp: on_i2c_request", "src/fsw/FCCode/Drivers/ADCS.cpp: get_imu"]}
{"id": "C95", "title": "Sun sensor voltages are true", "statement": "In every history from power-up in which the sun sensor converters deliver -12 mV to 3.312 V, every request for the voltages is answered, and what the flight computer decodes is what each channel last measured, to 1.1 steps of the eight-bit format.", "quantifier": "every history of messages, main-loop steps, converter values in that range, converter failures and filter settings; for the accuracy, the default filter setting", "why_tests_cant": "Range and accuracy must hold for every value and after every history of filter settings and failures; the undefined conversion outside the range cannot be observed by a test at all.", "anchors": ["src/adcs/ssa.cpp: update_sensors", "src/adcs/state_controller.cpp: on_i2c_request", "src/fsw/FCCode/Drivers/ADCS.cpp: get_ssa_voltage"]}
{"id": "C96", "title": "The box monitor reports the box faithfully", "statement": "The published device table is the table of the box; the faults of the box, the wheel converters and the potentiometer are raised exactly if they were missing in the two control cycles before the last one; the sun vector is published only when complete; the range flags are set exactly for readings out of range; a silent box is visible.", "quantifier": "every history of control cycles and every content of every answer", "why_tests_cant": "The delay and persistence rules speak about all histories and the flags about all values of the answers; tests check single cycles with fixed mock data.", "anchors": ["src/fsw/FCCode/ADCSBoxMonitor.cpp: execute", "src/fsw/FCCode/Drivers/ADCS.cpp: get_havt, get_ssa_vector, get_rwa, get_imu", "src/common/Fault.cpp: evaluate"]}
{"id": "C97", "title": "Fields of real numbers are transmitted to within one step", "statement": "Whatever number is written into a float or double field of the telemetry, it is transmitted, and what the receiver decodes is the closest value of the range of the field, to one step of its format; every pattern of bits commanded by the ground is decoded as the value of that step, and reported back as that step.", "quantifier": "every value including infinities and NaN, every range and bit size, both precisions", "why_tests_cant": "The chain of subtraction, division, truncation, multiplication and addition rounds five times; whether a value ever slips by a step or overflows the bits must hold for all floats and all ranges, tests try a few values of a few fields.", "anchors": ["src/common/SerializerTypes.inl: Serializer<float>, Serializer<double>", "src/common/fixed_array.hpp: bit_array::set_ullong"]}
{"id": "C98", "title": "Vectors are transmitted to their precision", "statement": "Every vector written into a vector field of the telemetry is transmitted, and what the receiver decodes lies within the documented precision, (max - min) / 2^p, of it, its length moved into the range of the field if necessary.", "quantifier": "every vector, every range of lengths and every precision", "why_tests_cant": "The encoding goes through polar coordinates with three truncations and special directions (the axes, a zero component of either sign); accuracy must hold for all directions, tests try a few.", "anchors": ["src/common/SerializerTypes.inl: VectorSerializer, LinVectorSerializer"]}
{"id": "C99", "title": "Attitudes are transmitted to a hundredth", "statement": "Every attitude quaternion is transmitted in 32 bits, and what the receiver decodes is a unit quaternion of the same rotation, each component to 8/1023.", "quantifier": "every quaternion and every pattern of bits", "why_tests_cant": "Which component is dropped and restored, and the sign convention, depend on the values; the restored component is a root whose argument must never become negative. Tests try a few quaternions.", "anchors": ["src/common/SerializerTypes.inl: QuaternionSerializer, LinVectorSerializer"]}
{"id": "C100", "title": "A sensor that stops answering is taken out of service, and never shows data of a failed exchange", "statement": "A sensor of the attitude control box (first magnetometer, gyroscope) is in service exactly if its last reset succeeded and since then no three exchanges in a row went wrong; a reset makes at most three attempts; the data shown are always those of the last read without a bus error.", "quantifier": "every sequence of requests and every outcome of every bus call", "why_tests_cant": "Which calls fail, and in which order, is up to the bus; tests make a few calls fail.", "anchors": ["src/adcs/dev/I2CDevice.inl: i2c_pop_errors, reset", "src/adcs/dev/LIS2MDLTR.cpp", "src/adcs/dev/LSM6DSM.cpp"]}
{"id": "C101", "title": "Calibrating the second magnetometer removes its zero error and leaves it measuring", "statement": "A calibration of the second magnetometer always ends; afterwards the magnetometer measures continuously or is out of service; if the calibration succeeded its readings are half the field with the zero error of the electronics removed, and computing them never overflows.", "quantifier": "every field and zero error, every outcome of every bus call and every behaviour of the magnetometer", "why_tests_cant": "A calibration is some twenty exchanges with waits, each of which can fail or not end.", "anchors": ["src/adcs/dev/MMC34160PJ.cpp: calibrate, single_read, reset, read", "src/adcs/dev/MMC34160PJ.hpp: get_b_x", "src/adcs/imu.cpp: update_mag2, setup"]}
{"id": "C102", "title": "Wheel measurements are the values converted, and always come to an end", "statement": "A conversion read without a bus error gives the signed 12-bit value the converter sent; a converter that fails three times in a row is taken out of service; reading one always ends.", "quantifier": "every pair of bytes, every outcome of every bus call and every behaviour of the alert line", "why_tests_cant": "Bytes, bus errors and the alert line are inputs from outside; a wait that does not end cannot be tested for.", "anchors": ["src/adcs/dev/ADS1015.cpp: start_read, end_read, reset", "src/adcs/rwa.cpp: update_sensors"]}
{"id": "C103", "title": "The sun vector is the direction of the sun", "statement": "When the attitude control box reports a sun vector, it is the direction of length one that fits the voltages of the lit sun sensors best; in particular, with exact sensors, it is the direction of the sun. Too few lit sensors are reported as a failure.", "quantifier": "every set of voltages, every set of converters in service and every direction of the sun", "why_tests_cant": "The lit sensors and so the system solved differ with every direction; tests try a few directions against the same table of sensor directions.", "anchors": ["src/adcs/ssa.cpp: calculate_sun_vector", "src/adcs/ssa_config.hpp: normals, s20, c20"]}
{"id": "C104", "title": "A command the ground tool takes is the command the satellite gets", "statement": "From a set of field names and values the ground tool either makes a packet or refuses. If it makes one, the satellite sets exactly the named fields, each to the value written (whole numbers and booleans exactly where the format allows it, other numbers within one step of the format, vectors and quaternions within the precision of theirs), and no other field. Every value within a field's range is taken.", "quantifier": "every registry of writable fields, every set of commands, every value", "why_tests_cant": "The value passes through a JSON conversion, a range check, a check against the width of the format, a quantisation, the packet and the satellite's parser; tests send a few values of a few fields.", "anchors": ["src/gsw/parsers/src/UplinkProducer.cpp: try_add_field, try_add_vector_field, try_add_linvector_field, try_add_quat_field, try_add_linquat_field, try_add_gps_time, add_field_to_bitstream, create_sbd_from_json", "src/fsw/FCCode/UplinkCommon.cpp: validate_packet", "src/fsw/FCCode/UplinkConsumer.cpp: update_fields", "src/common/SerializerTypes.inl: serialize, deserialize"]}
{"id": "C105", "title": "The text of a field says its value, and reads back as that value", "statement": "The text a field prints - in the ground's downlink parser and on the console - writes its value: whole numbers exactly, other numbers within half a millionth. Text written to a field sets it to the number the text writes; text that writes no value is refused and leaves the field as it was. So a printed value, written back, gives the same value.", "quantifier": "every value of every type, every text", "why_tests_cant": "Formatting and scanning depend on every digit of the value; tests print and read a few values.", "anchors": ["src/common/SerializerTypes.inl: print, deserialize(const char*, T*), vector_print, deserialize_vector_str", "src/gsw/parsers/src/DownlinkParser.cpp: process_downlink_packet"]}
{"id": "C106", "title": "Printing a field stays within its buffer", "statement": "No field, whatever its value, is printed beyond the buffer set aside for its text.", "quantifier": "every value of every field type", "why_tests_cant": "The overflow depends on the number of digits of the value; tests use small values, for which it does not occur.", "anchors": ["src/common/SerializerTypes.inl: print, vector_print, vector_print_size, print_size", "src/common/Serializer.hpp: SerializerBase"]}
{"id": "C107", "title": "The console carries out every command on a line", "statement": "Every message in a line sent to the console of a test bed is carried out, in order, and answered once: a request to read prints the value of the field, a request to write sets the named field to the value written and prints it, and no other field changes; malformed messages are refused without effect; and the call always ends.", "quantifier": "every line, every list of messages, every table of fields", "why_tests_cant": "The failures depend on the number, order and kind of the messages on a line and on what memory held before; tests send one or two messages.", "anchors": ["src/common/debug_console.cpp: process_commands, print_state_field, _print_error_state_field"]}
{"id": "C108", "title": "An uplink given to the console arrives like one received by radio", "statement": "An uplink packet sent to the console as hexadecimal text is put, byte for byte, into the buffer of received messages, so that the next run of the uplink consumer changes exactly the fields of the packet; text that does not match the length is refused.", "quantifier": "every packet, every text of it, every state", "why_tests_cant": "Whether decoding goes wrong depends on the length of the packet and its digits; tests send one packet.", "anchors": ["src/common/debug_console.cpp: process_commands (mode u)", "src/fsw/FCCode/UplinkConsumer.cpp: execute"]}
{"id": "C109", "title": "A cycle starts when the test bed asks for it", "statement": "When cycles are started by hand, a control cycle starts after the first batch of commands that sets cycle.start or cycle.auto, and not before; each request starts one cycle; when cycles start by themselves, one batch of commands is taken per cycle.", "quantifier": "every sequence of commands", "why_tests_cant": "It is a statement about all histories of commands, including those that never start a cycle.", "anchors": ["src/fsw/FCCode/DebugTask.cpp: execute"]}
{"id": "C110", "title": "A device on the flight computer's bus that answers is held to work, and one that is silent is not", "statement": "Setting a device up succeeds exactly if it answers one of up to three questions. Afterwards the device is reported as working, and its data as valid, as its recent exchanges warrant: fewer than three failures in a row, and none. The record of recent errors says whether an exchange failed since it was last read. A ping or a command succeeds only if the device answered it.", "quantifier": "every history of bus exchanges, setups, resets and reads of the error record, every number of bytes that arrive", "why_tests_cant": "Failures of the bus come in any order between any two calls; tests replace the bus by a stub that always succeeds.", "anchors": ["src/fsw/FCCode/Devices/I2CDevice.hpp: I2CDevice", "src/fsw/FCCode/Devices/I2CDevice.cpp: setup, disable, reset, error_count, recent_errors, is_functional", "src/fsw/FCCode/Devices/I2CDevice.inl: i2c_pop_errors, i2c_receive_data, i2c_end_transmission", "src/fsw/FCCode/Drivers/ADCS.cpp: i2c_ping", "src/fsw/FCCode/Drivers/Gomspace.cpp: i2c_ping, _check_for_error, get_hk"]}
{"id": "C111", "title": "Parts of the power supply's data and its configuration are read and written faithfully", "statement": "A group of the housekeeping data read alone has the values it has within the whole, and nothing else changes. A configuration that is written reaches the supply byte for byte in its byte order and is committed only if it was taken; one that is read back is delivered in the object handed over. Restoring the defaults restores them.", "quantifier": "every configuration, every content of memory, every answer of the supply", "why_tests_cant": "The byte order of every field and the place every byte is copied to matter; tests on the desktop never run the flight driver.", "anchors": ["src/fsw/FCCode/Drivers/Gomspace.cpp: get_hk_vi, get_hk_out, get_hk_wdt, get_hk_basic, config_get, config_set, config2_get, config2_set, config2_confirm, restore_default_config2"]}
{"id": "C112", "title": "The tank sensors' numbers become the pressure and temperature they stand for", "statement": "The reported tank pressure is the calibrated line of the sensor in use, to the rounding of the arithmetic; the tests for readiness to fire and for over-pressure, and the test for a tank too hot, are met exactly from a known number of the converter on; readings lie within the calibrated range.", "quantifier": "every number of the analogue converters, both craft", "why_tests_cant": "The pressure is rounded twice in double and once in single precision, and the temperature is a power of a logarithm; tests set the results instead.", "anchors": ["src/fsw/FCCode/Drivers/PropulsionSystem.cpp: get_pressure, get_temp", "src/fsw/FCCode/Drivers/PropulsionSystem.hpp: Tank, _Tank2", "src/fsw/FCCode/PropController.hpp: is_tank2_overpressured, is_at_threshold_pressure, is_tank1_temp_high"]}
{"id": "C113", "title": "The GPS driver's status readings, its log and its commands say what the receiver said and was told", "statement": "Each status reading (precision, serial channels, ambiguity search, heartbeat, base station position) is that of the last message of its kind. The receiver counts as healthy exactly if its last heartbeat reports no error, part by part. The log holds the latest log messages and is cleared when dumped. Commands, settings and user data reach the receiver as given.", "quantifier": "every sequence of frames and noise from the receiver, however split over control cycles; every command argument", "why_tests_cant": "The readings depend on all frames that came before and on how bytes fall into cycles; the desktop build of the driver never decodes a byte.", "anchors": ["src/fsw/FCCode/Drivers/Piksi.cpp: get_dops_tow, get_base_pos_ecef, get_iar, is_functional, is_swiftnap_healthy, get_uart_a_tx_throughput, dump_log, clear_log, _insert_log_msg, settings_save, settings_write, piksi_reset, send_user_data, process_buffer_msg_len", "src/fsw/FCCode/Drivers/Piksi.hpp: Piksi", "lib/common/libsbp/src/sbp.c: sbp_process, sbp_send_message"]}
{"id": "C114", "title": "The docking motor turns only with power, what is reported of it is true, and docking uses it in the right configuration", "statement": "A commanded half turn that is reported as carried out has moved the motor by the half turn's number of steps. In safehold the motor does not move. Docking begins only when the mechanism is in the docking configuration, and the spacecraft counts as docked exactly if the docking switch is pressed.", "quantifier": "every state of the spacecraft, every number of control cycles and every interleaving of the step timer's interrupts with the tasks", "why_tests_cant": "Motor, converter and mission state belong to four tasks and an interrupt; the desktop build has neither power nor interrupts and steps the motor once per cycle.", "anchors": ["src/fsw/FCCode/DockingController.cpp: execute", "src/fsw/FCCode/Drivers/DockingSystem.cpp: start_halfturn, step_motor, is_functional", "src/fsw/FCCode/DCDCController.cpp: execute", "src/fsw/FCCode/MissionManager.cpp: dispatch_docking, dispatch_follower_close_approach, dispatch_leader_close_approach, transition_to", "src/fsw/FCCode/MainControlLoop.cpp: execute"]}
{"id": "C115", "title": "A manoeuvre commanded in time is flown at the commanded time, or its failure is reported", "statement": "A manoeuvre (four valve durations and a number of control cycles) commanded while the propulsion system is idle is flown exactly when that number of cycles has passed, neither earlier nor later, if the hardware works, no propulsion fault is reported, nobody interferes and the tank reaches its pressure while it is being filled. If it is commanded as many cycles ahead as all fillings of the tank can take, it is never dropped silently: it is flown, or the failure to fill the tank is reported.", "quantifier": "every manoeuvre, every value of the filling parameters, every sequence of sensor readings and every number of control cycles", "why_tests_cant": "The filling takes over a thousand control cycles and ends at any of them depending on the pressure; tests follow one pressure profile.", "anchors": ["src/fsw/FCCode/PropController.cpp: execute, evaluate, can_enter, min_cycles_needed", "src/fsw/FCCode/PropController.hpp", "src/fsw/FCCode/OrbitController.cpp: execute, prop_min_cycles_needed"]}
{"id": "C116", "title": "The flight software starts: every task finds the fields it needs", "statement": "Each control task registers its state fields and looks up those of other tasks by name, class and type when it is constructed; any lookup of a field that is not there yet, is of another class or type, and any name registered twice, stops the program by an assertion. A set of tasks starts exactly if every lookup is of a field registered before with that class and type and no name is used twice. The tasks of the flight software, in their order of construction, start; every field named in the table of downlink flows exists; and the fields that are saved fit the EEPROM.", "quantifier": "every sequence of registrations and lookups; the 416 fields and 180 lookups of the flight software with their order", "why_tests_cant": "Unit tests construct each task with a registry made for the test; the names are strings that the compiler does not check.", "anchors": ["src/fsw/FCCode/MainControlLoop.cpp", "src/fsw/FCCode/ControlTask.hpp: add_readable_field, add_writable_field, find_writable_field, find_readable_field, find_internal_field, find_fault", "src/fsw/FCCode/DownlinkProducer.cpp: init_flows", "src/common/StateFieldRegistry.hpp", "src/flow_data.cpp"]}
{"id": "C117", "title": "The flight software reports its telemetry as configured", "statement": "With the flows and fields the flight software is configured with: the table of flows is accepted; whatever flows are commanded active and in whatever order, the frame buffer is never overrun; as long as no flow is commanded a frame is produced in every cycle, it contains every bit of every field of the active flows in its place, and the ground recovers them; a command to toggle or shift flows either does it or has no effect.", "quantifier": "every memory content, every history of control cycles, every value of every field, every command value", "why_tests_cant": "The number of active flows, their order and the values of the fields have far too many combinations, and the defects show only for frames of more than one packet, which tests of the producer with a few small flows do not reach.", "anchors": ["src/fsw/FCCode/DownlinkProducer.cpp: init_flows, execute, toggle_flow, shift_flow_priorities", "src/fsw/FCCode/DownlinkProducer.hpp", "src/flow_data.cpp", "src/gsw/parsers/src/DownlinkParser.cpp: process_downlink_packet"]}
{"id": "C118", "title": "A requested sun vector is calculated, and only a good one is reported", "statement": "The flight computer asks the attitude control box for a sun vector by writing a request to a register, which also says whether a calculation is in progress, complete or failed. A request made while none is in progress is always taken; whatever messages follow, a result is stored within one pass of the box's main loop, and until then the register says that the calculation is in progress. Whenever the register says complete, the vector is the result of the last calculation, and that succeeded. Mode and vector, read one after the other without a request in between, belong together. The flight computer writes nothing but requests, one in every cycle in which it has not read \"in progress\".", "quantifier": "every interleaving of bus messages with the steps of the main loop, every message content, every history since power-up", "why_tests_cant": "The bus interrupt can come between any two steps of the main loop; a test exercises a few interleavings.", "anchors": ["src/adcs/state_controller.cpp: on_i2c_recieve (SSA_MODE)", "src/adcs/main.cpp: update_ssa", "src/fsw/FCCode/ADCSBoxController.cpp: execute", "src/fsw/FCCode/Drivers/ADCS.cpp: set_ssa_mode"]}
{"id": "C119", "title": "Propulsion begins nothing without power", "statement": "In a control cycle at the end of which the converter that powers the thrusters is off, no firing begins and propulsion enters none of its working states: its state is what it was, or idle, or disabled. Without power, a manoeuvre that is due is dropped and propulsion is disabled; waiting goes on waiting; fault handling ends as disabled.", "quantifier": "every state of the satellite, every input, every fault, every mission state", "why_tests_cant": "The power state, the mission state, ten propulsion states and all faults combine.", "anchors": ["src/fsw/FCCode/PropController.cpp: can_enter, execute", "src/fsw/FCCode/Drivers/PropulsionSystem.cpp: is_functional", "src/fsw/FCCode/DCDCController.cpp", "src/fsw/FCCode/MissionManager.cpp"]}
{"id": "C120", "title": "What is put into a stream comes out of it", "statement": "Numbers, bit arrays and streams put into a bit stream with << lie in it one after the other from its position on; no other bit of its buffer changes. Going back and taking out items of the same kinds with >> gives what was put in. A stream put into another is copied from its position to its end.", "quantifier": "every sequence of items, every buffer, every position", "why_tests_cant": "Positions within a byte, sizes and orders combine; a test puts a few items at a few positions.", "anchors": ["src/common/bitstream.h", "src/common/bitstream.cpp: operator<<, operator>>"]}
{"id": "C121", "title": "The telemetry description tells the ground what the telemetry contains", "statement": "The description of the telemetry that is generated for the ground names every field that can be read or commanded and no others. It gives the field's type, the number of bits it has in the telemetry, the limits of a number and of the length of a vector, whether it can be commanded, whether and how often it is saved to the EEPROM, and the flow it is sent in. The priority of a flow is its place in the order of sending. A description that is read back is the one that was written.", "quantifier": "every sequence of registrations and lookups with which the software starts, every table of flows, every description", "why_tests_cant": "A test compares the description of a few fields; a field of a type the generator does not know stops it, and a field in two flows or an event in a flow is described wrongly, which depends on every control task and the whole table.", "anchors": ["src/gsw/parsers/src/TelemetryInfoGenerator.cpp: generate_telemetry_info, get_readable_field_info, get_writable_field_info, to_json, from_json", "src/gsw/parsers/src/TelemetryInfoGenerator.hpp: TelemetryInfo"]}
{"id": "C122", "title": "The session status the radio records is the one the modem reports", "statement": "The numbers in the modem's answer to a session request are recorded as the modem wrote them, whatever they are and however much of the answer has arrived when the flight software looks: either the look is not accepted, or what is recorded is what the modem reported. So a contact is recorded exactly when the modem reports one. Only an answer to the request is taken for one.", "quantifier": "every six numbers, every number of bytes that have arrived, every history of the radio manager", "why_tests_cant": "A test feeds a whole, short answer; numbers of other lengths shift the text, and an answer cut at any byte is a different text.", "anchors": ["src/fsw/FCCode/Drivers/QLocate.cpp: QLocate::get_sbdix, QLocate::parse_ints"]}
{"id": "C123", "title": "Sensors are read as they were asked to be, and their numbers taken at the chips' scale", "statement": "A converter's conversion is made at the inputs, over the range and at the rate last asked for, its end is signalled the way the driver waits for, and the voltage, field, rate and temperature readings that reach the flight computer are the quantities the chips' numbers stand for under the settings written to them. No two chips share an address on a bus and no two lines a pin.", "quantifier": "every sequence of settings, resets and conversion requests, with any messages lost on the bus; every voltage in range; every sixteen-bit number of the gyroscope and the magnetometers", "why_tests_cant": "The meaning of a number depends on the bits of a register written earlier, in every combination of gain, rate and channel and after every history; tests replace the chips by fixed numbers.", "anchors": ["src/adcs/dev/ADS1015.cpp: setup, reset, set_sample_rate, start_read", "src/adcs/dev/ADS1015.hpp: GAIN, SR, CHANNEL", "src/adcs/dev/LSM6DSM.cpp: reset, disable", "src/adcs/dev/LIS2MDLTR.cpp: reset, disable", "src/adcs/dev/MMC34160PJ.cpp: reset, disable", "src/adcs/rwa.cpp: setup, update_sensors", "src/adcs/ssa.cpp: setup, update_sensors", "src/adcs/constants.hpp: max_rd_omega, max_mag1_rd_mag, max_mag2_rd_mag"]}
{"id": "C124", "title": "Telemetry shows the value that was commanded", "statement": "After the ground tool has accepted a command file and its packet has been taken on board, a telemetry frame sent before any task changes the commanded fields is read by the ground as the values asked for: whole numbers, truth values and times exactly as held on board, other numbers and quaternions to a stated accuracy.", "quantifier": "every set of commandable fields, every command file with values of the fields' types, every earlier state of the board, every configuration and history of the downlink flows", "why_tests_cant": "It is a chain of five encodings and decodings, on the ground and on board, over all values and layouts; tests check each link on a few numbers.", "anchors": ["src/gsw/parsers/src/UplinkProducer.cpp: create_from_json", "src/fsw/FCCode/UplinkConsumer.cpp: execute", "src/common/StateFieldTypes.inl: serialize, deserialize", "src/fsw/FCCode/DownlinkProducer.cpp: execute", "src/gsw/parsers/src/DownlinkParser.cpp: process_downlink_file"]}
{"id": "C125", "title": "Fields that share their encoding buffer do not disturb each other", "statement": "The vectors and quaternions of the attitude tasks are made from shared serializer objects, so several fields keep their encoded bits in one place. Still every report contains, for each field, the encoding of that field's own value; every command file, for each entry, the encoding of the value asked for; and an uplink or a frame being read sets each field to what its own bits decode to and leaves all other values.", "quantifier": "every set of fields, every way in which they share storage, all values, all reports, command files, uplink packets and frames", "why_tests_cant": "Sharing is invisible in tests of single fields: it needs two fields of one serializer in one report or packet, in every order.", "anchors": ["src/common/SerializerTypes.inl: LinVectorSerializer", "src/common/StateFieldTypes.inl: serialize, deserialize, get_bit_array, set_bit_array", "src/fsw/FCCode/AttitudeController.cpp: constructor", "src/fsw/FCCode/ADCSBoxMonitor.cpp: constructor", "src/common/Event.cpp: serialize, deserialize", "src/fsw/FCCode/UplinkCommon.cpp: _update_fields"]}
{"id": "C126", "title": "The program that fills the tanks closes every valve in time and keeps the power supply alive", "statement": "Whenever the tank filling program opens one of the propulsion valves, it closes that valve again after at least 0.406 s and at most 1.018 s (plus the delays of at most 26 actions), without having written to it in between; and from its start, and for ever after the sequence has ended, it never goes without reading the power supply's register for more than 55.12 s (plus the delays of at most 186 actions). However long it runs, it opens each valve between the tanks 108 times and each nozzle valve 627 times, and drives no pin high that is not a valve, the lamp or one of the two converters.", "quantifier": "every moment of the program's endless run, every duration of its prints, bus transfers and waits", "why_tests_cant": "The program runs for hours and then for ever; its timing depends on prints and bus time-outs; a test can watch one run.", "anchors": ["src/prep/FillingSequence_with_gomspace_pings.cpp: setup, loop, fire, stop_fire, ping_gomspace", "src/fsw/FCCode/Drivers/PropulsionSystem.hpp: valve pins"]}
{"id": "C127", "title": "Every message the modem hands over is carried out exactly once, in the next cycle", "statement": "Each message the modem hands over is applied to the commanded fields in the next control cycle, whole and exactly once, before the tasks that act on these fields run; a message that is not a valid list of updates changes nothing; in no other way does the uplink change a field. In particular a packet the ground tool made of a command file sets exactly the fields named in the file, to their values.", "quantifier": "every history of control cycles since start-up, every behaviour of the modem that keeps to the length it announced, every set of fields, every command file", "why_tests_cant": "Sessions span many cycles and the modem may answer, fail or stay silent in each of them; whether a message is lost, applied late, twice or in part depends on the whole history.", "anchors": ["src/fsw/FCCode/UplinkConsumer.cpp: execute", "src/fsw/FCCode/QuakeManager.cpp: dispatch_read, dispatch_transceive", "src/fsw/FCCode/Drivers/QLocate.cpp: get_sbdrb, get_sbdix", "src/fsw/FCCode/MainControlLoop.cpp: execute"]}
{"id": "C128", "title": "Safehold commanded by the ground stops the actuators", "statement": "When the ground commands the mission state safehold, the control cycle that receives the command ends as one in which a safehold-level fault is found: propulsion is disabled with its valves closed, the attitude control box is told to be passive and the converters are commanded off. (False of the code: the command alone stops nothing; it holds if the same packet also commands propulsion disabled and attitude control into its startup state.)", "quantifier": "every state of the satellite, every input of the cycle, every moment at which the command arrives", "why_tests_cant": "A test commands safehold from a quiet state and looks at the mission state; what goes on depends on the attitude state, the converter commands and the propulsion schedule at that moment, and on five tasks running in order.", "anchors": ["src/fsw/FCCode/MissionManager.cpp: MissionManager, execute, dispatch_safehold, set", "src/fsw/FCCode/MainControlLoop.cpp: execute", "src/fsw/FCCode/SimpleFaultHandler.cpp: active_state_lists", "src/fsw/FCCode/PropController.cpp: execute"]}
{"id": "C129", "title": "A low battery or a lost wheel shuts the actuators down in time", "statement": "If the power supply answers in two control cycles in a row with a battery voltage below the threshold, or the attitude control box lists a device of the wheels (potentiometer, converters of the three wheels) as out of service in two cycles in a row, the next control cycle ends in safehold with propulsion disabled, its valves closed and its schedule cleared, and the box is told to be passive; after a day in safehold the supply is told to reset the satellite, once. (False while docking, where these faults are not acted upon.)", "quantifier": "every history of control cycles since the computer started, every answer of the supply and of the box in them, every state of the actuators, everything the other tasks and the ground do as long as they leave these faults, the mission state and fault handling alone", "why_tests_cant": "The answer passes through the driver, the task that publishes it, a fault counter with persistence, the fault handlers, the mission manager and five actuator tasks over three cycles; a test drives one of them with the others stubbed and a counter freshly constructed.", "anchors": ["src/fsw/FCCode/MainControlLoop.cpp: execute", "src/fsw/FCCode/GomspaceController.cpp: execute", "src/fsw/FCCode/ADCSBoxMonitor.cpp: execute", "src/common/Fault.cpp: evaluate, is_faulted", "src/fsw/FCCode/SimpleFaultHandler.cpp: execute", "src/fsw/FCCode/MissionManager.cpp: execute, dispatch_safehold"]}
{"id": "C130", "title": "A tank that stays over its pressure or too hot is vented in time", "statement": "If tank 2 reads more than 75 psi, or a tank more than 49 degrees, for eleven control cycles in a row while propulsion is waiting, filling or firing with power on its valves, the next cycle stops what it was doing and goes to fault handling; if it goes on, the cycle after starts to vent, the tank concerned unless the other has a fault as well, and the third one opens a valve of that tank. (False while propulsion is disabled, as at startup and in safehold: then nothing is ever vented.)", "quantifier": "every history of control cycles since the computer started with fewer than 2^32 cycles, every reading in them, every write by other tasks and the ground that leaves these faults alone, every number of timer interrupts between the steps, each of the three kinds of trouble", "why_tests_cant": "A counter with persistence has to be right after any earlier history, the state machine has seven states from which trouble is to be noticed, and the valves and venting cycles may have been left in any condition by earlier firings; a test drives one fault from a fresh controller.", "anchors": ["src/fsw/FCCode/PropController.cpp: execute, check_faults, PropState_HandlingFault, PropState_Venting", "src/common/Fault.cpp: evaluate, is_faulted", "src/fsw/FCCode/Drivers/PropulsionSystem.cpp: open_valve"]}
{"id": "C131", "title": "The propulsion rules hold in the flight software as a whole", "statement": "In the composed control loop, whatever faults occur and whatever the ground uplinks short of the propulsion state, the tank faults and the startup state: a valve of the inner tank is open only while the outer tank is being filled or the inner one vented, a valve of the outer tank only while it fires or is vented, the valve timer runs only while firing, at most one valve is open outside of firing, and nothing is open during startup or while propulsion is disabled; and a tank that has been over its pressure or too hot for eleven control cycles has a valve open three cycles later if the trouble goes on, propulsion was waiting or firing and is powered, the satellite is not being sent to safehold and the other tank is sound.", "quantifier": "every history of the composed control cycle from construction, of any length, with any sensor readings, timer interrupts, fault reports, orbit computations and roundings, and any uplinks except of the propulsion state, of the three tank faults, and of the startup state", "why_tests_cant": "The rules of the propulsion controller are tested on the controller alone with the other tasks mocked; that no sequence of fault responses, mission state changes and orbit computations breaks them in the assembled software is a statement about all histories of several tasks sharing fields.", "anchors": ["src/fsw/FCCode/MainControlLoop.cpp:MainControlLoop::execute", "src/fsw/FCCode/MissionManager.cpp:MissionManager::execute", "src/fsw/FCCode/PropController.cpp:PropController::execute", "src/fsw/FCCode/PropFaultHandler.cpp:PropFaultHandler::execute", "src/fsw/FCCode/MainFaultHandler.cpp:MainFaultHandler::execute"]}
{"id": "C132", "title": "A manoeuvre the orbit controller has planned is flown at the planned time, for the planned durations", "statement": "In the composed control loop, a manoeuvre that the orbit controller plans at least three control cycles ahead while propulsion is idle is accepted in the same cycle. From then on its countdown goes down by one in every cycle, although the orbit controller plans anew in each of them. Unless somebody interferes, power is lost, the satellite is sent to safehold or a propulsion fault is handled, firing begins exactly when the countdown runs out, not earlier and not later, if the pressure suffices at some time while the tank is being filled with at least three cycles left; and in any case if the manoeuvre was accepted as many cycles ahead as all permitted fillings take. Each thrust valve is then opened for the duration the orbit controller computed last, rounded down to a multiple of 3 ms.", "quantifier": "every history of the composed control cycle from construction, every manoeuvre planned, every sequence of calm cycles of any length, with any sensor readings, interrupts, orbit computations and roundings, and harmless uplinks (durations, fault commands, parameters of venting and of manual mode)", "why_tests_cant": "The orbit controller and the propulsion controller are tested separately, each with the fields of the other set by hand. That the repeated planning never moves a manoeuvre under way, and that the fault handlers and the mission manager leave it alone, is a statement about all histories of tasks sharing fields.", "anchors": ["src/fsw/FCCode/MainControlLoop.cpp:MainControlLoop::execute", "src/fsw/FCCode/OrbitController.cpp:OrbitController::execute", "src/fsw/FCCode/PropController.cpp:PropController::execute", "src/fsw/FCCode/MissionManager.cpp:MissionManager::execute"]}
{"id": "C133", "title": "The thrusters fire only if somebody has planned it", "statement": "In the flight software as a whole, in every history since the computer started, the satellite fires its thrusters, or fills the tank for it, only if the ground has commanded a firing (by writing the countdown or the state of the propulsion system) or if in an earlier cycle it was following the other satellite with valid estimates of time, orbit, relative orbit and attitude.", "quantifier": "All histories of the composed control tasks from power-up, of any length, with any sensor readings, faults, power states, ground commands other than those of a firing, interrupts of the valve timer and results of the orbit library.", "why_tests_cant": "A test shows that nothing is fired in the histories it runs; the claim is that no history at all leads to a firing without a plan.", "anchors": ["src/fsw/FCCode/MainControlLoop.cpp execute", "src/fsw/FCCode/OrbitController.cpp OrbitController::execute", "src/fsw/FCCode/PropController.cpp PropController::execute", "src/fsw/FCCode/MissionManager.cpp MissionManager::execute"]}
{"id": "C134", "title": "Nothing on the satellite acts during the deployment wait", "statement": "From a boot in startup until the deployment wait is over (10600 control cycles at the first boot, less the hundreds of cycles counted before a reboot), every control cycle leaves propulsion disabled with all valves closed, the valve timer off and nothing scheduled, and tells the attitude box to be passive with a moment of zero; a box that gets these messages drives no magnetorquer and no wheel. The first cycle after the wait leaves startup and makes the box active.", "quantifier": "All histories of the composed control tasks over the wait, with any sensor readings, faults, interrupts and writes of the ground and other tasks except to the mission, attitude and propulsion states and the counter itself; all values of the saved counter; all interleavings of the messages with the main loop of the box and all answers of its devices.", "why_tests_cant": "The wait is 10600 cycles long and passes through six tasks on one computer and the main loop of another; a test runs one history with one interleaving.", "anchors": ["src/fsw/FCCode/MainControlLoop.cpp execute", "src/fsw/FCCode/MissionManager.cpp MissionManager::dispatch_startup", "src/fsw/FCCode/ADCSBoxController.cpp ADCSBoxController::execute", "src/fsw/FCCode/PropController.cpp PropController::execute", "src/adcs/main.cpp loop"]}
{"id": "C135", "title": "What the attitude box is told follows the mission state", "statement": "In every history of the flight software since power-up in which nobody commands the mission state or the attitude state, attitude control is after every control cycle in the state documented for the mission state, and the cycle has told the box accordingly: passive in startup and safehold; active, with wheels disabled and rods on, while detumbling; with zero wheel torque and rods off when docking and docked; pointing otherwise, and then with zero torque and moment whenever the attitude, magnetic field, time or orbit estimate is not valid. A change of the mission state takes effect at the box in the same cycle.", "quantifier": "All histories of the composed control tasks from power-up, of any length, with any sensor readings, estimates, faults and results of the attitude library, and any writes of the ground and the other tasks except to the two states; whatever the box was told before.", "why_tests_cant": "A test shows the messages of the histories it runs; the claim is about every path through the mission states, with every fault on the way.", "anchors": ["src/fsw/FCCode/MainControlLoop.cpp execute", "src/fsw/FCCode/MissionManager.cpp MissionManager::transition_to", "src/fsw/FCCode/AttitudeController.cpp AttitudeController::execute", "src/fsw/FCCode/ADCSCommander.cpp ADCSCommander::execute", "src/fsw/FCCode/ADCSBoxController.cpp ADCSBoxController::execute"]}
{"id": "C136", "title": "From the sensors to the actuators", "statement": "In every history of the flight software with its estimators since power-up in which the ground commands no firing: if the satellite is filling its tank for a manoeuvre, about to fire, firing, or has fired, then there was a control cycle in which it was following the other satellite, its gyroscope and a magnetometer worked, it had had a GPS fix since the last reset of the time, and it had heard of the other satellite (a measured baseline or an orbit sent by the ground). And in the states in which it points, a wheel torque or rod moment other than zero is commanded only in a cycle in which gyroscope and magnetometer work and there has been a GPS fix since the last reset of the time.", "quantifier": "All histories of the estimators and the control tasks together, of any length, with any receiver and sensor readings, resets, uplinked orbits and faults, any results of the attitude, orbit and relative orbit libraries, and any writes of the ground that command no firing (pointing: that do not command the mission or attitude state).", "why_tests_cant": "The sensors, the estimators and the control tasks are tested one by one, with the flags between them set by the test; the claim is about every history of all of them in one control cycle.", "anchors": ["src/fsw/FCCode/MainControlLoop.cpp execute", "src/fsw/FCCode/Estimators/TimeEstimator.cpp", "src/fsw/FCCode/Estimators/OrbitEstimator.cpp", "src/fsw/FCCode/Estimators/RelativeOrbitEstimator.cpp", "src/fsw/FCCode/Estimators/AttitudeEstimator.cpp", "src/fsw/FCCode/OrbitController.cpp", "src/fsw/FCCode/AttitudeController.cpp"]}
{"id": "C139", "title": "The GPS receiver is off during startup and switched on after it", "statement": "From power-up and through every cycle in startup the power supply is told to switch the GPS receiver off and never to switch it on. When startup ends, the supply's task holds the receiver off no longer and has a request to cycle its power: in the next cycle in which outputs are switched, however much later, the receiver's is switched on if it is shown off, else off.", "quantifier": "Every number of cycles in startup and from its end to the switching, every state of the control tasks, every fault and every answer of the supply.", "why_tests_cant": "The mission manager and the power supply task are tested separately, with the fields between them set by the test; the claim is about every history of both.", "anchors": ["src/fsw/FCCode/MissionManager.cpp: dispatch_startup", "src/fsw/FCCode/GomspaceController.cpp: execute, power_cycle_outputs", "src/fsw/FCCode/MainControlLoop.cpp: execute"]}
{"id": "C137", "title": "Cycle numbers and clock times convert into each other", "statement": "The clock manager converts a time to the number of whole control cycles since cycling started, and a cycle number to the time at which it starts; converting a cycle number to a time and back gives the same number.", "quantifier": "Every start time, every time and every cycle number, over any length of operation, also across wrap-arounds of the 32-bit microsecond clock.", "why_tests_cant": "The conversions wrap after 71 minutes, and a test of a few cycles meets no wrap-around; the claim is for every time and cycle number.", "anchors": ["src/fsw/FCCode/ClockManager.cpp: systime_to_cycle, cycle_to_systime", "src/fsw/FCCode/TimedControlTask.hpp: sys_time_t, get_system_time", "src/fsw/FCCode/constants.hpp: control_cycle_time"]}
{"id": "C138", "title": "The radio's power is cycled when radio fault handling asks for it", "statement": "When radio fault handling enters a step that cycles the radio's power, the power supply task of the next control cycle has the request for the radio's output. In the next cycle in which it switches outputs it commands the supply to switch the radio's output off if it was last shown on, else on; the request stays until the output has been switched back on; and no output nobody asked for is switched. With a supply that obeys and answers truthfully the radio's output is off for exactly one period and then on again.", "quantifier": "Every state of the supply task, mission manager, fault handlers and the other control tasks, every fault, every answer of the supply, and any number of cycles between the request and the switching.", "why_tests_cant": "The fault handler, the mission manager and the power supply task are tested one by one with the shared field set by the test; the claim is about the field they share over every history.", "anchors": ["src/fsw/FCCode/QuakeFaultHandler.cpp: dispatch_forced_standby, dispatch_powercycle", "src/fsw/FCCode/GomspaceController.cpp: execute, power_cycle_outputs", "src/fsw/FCCode/MainControlLoop.cpp: execute"]}
{"id": "C140", "title": "Fixed arrays keep their size and are assigned as a whole or not at all", "statement": "Assigning to a fixed array copies a source of the same size as a whole and does nothing when the sizes differ. A copy equals its source. Whatever sequence of assignments, bit writes and settings from integers a bit array goes through, its size stays what it was.", "quantifier": "Every element type, every pair of arrays of any sizes, and every sequence of operations other than an explicit resize.", "why_tests_cant": "The tests assign a few arrays of a few sizes; the claim is about all sizes and all histories.", "anchors": ["src/common/fixed_array.hpp: fixed_array_base, operator=, fixed_array<bool>::set_ullong, fixed_array<bool>::set_uint"]}
{"id": "C141", "title": "Every message and error answer of the console carries a text of its own", "statement": "A constant map gives the value of the first entry with the key, and ends the program exactly if there is none. A message of any severity, and every error answer the console gives, is printed with texts that tell its severity, or the operation and the error, from all others; printing one never ends the program.", "quantifier": "Every map and key; every severity; every operation and error the console reports.", "why_tests_cant": "The texts are never compared by the tests, and a code without a text shows only when it is first reported.", "anchors": ["src/common/ConstexprMap.hpp: ConstexprMap::operator[]", "src/common/debug_console.cpp: severity_strs, state_field_error_strs, state_cmd_mode_strs, _print_json_msg, _print_error_state_field"]}
{"id": "C142", "title": "Time stamps of the console count from the last message without a connection", "statement": "While a computer is connected, the time stamp of what the console prints is the number of milliseconds since the last thing printed without a connection, or since power-up if there was none, modulo 2³²; without a connection it is 0. Two stamps of one connection differ by the time between them, also across the overflow of the timer.", "quantifier": "Every history of messages, connections and disconnections, at any times.", "why_tests_cant": "The tests run on a desktop, whose console takes the time from another clock; overflow of the timer takes 49 days.", "anchors": ["src/common/debug_console.cpp: debug_console::_get_elapsed_time"]}
