{
 "C01": {
  "status": "proved",
  "note": "Every write that fits changes exactly the addressed bits and reads back; also for sequences of writes."
 },
 "C02": {
  "status": "proved",
  "note": "Reads, peeks, seeks and reads into bit arrays for every stream, position and length."
 },
 "C03": {
  "status": "partial",
  "note": "The code violates the claim: writes starting at or crossing the end touch memory beyond the buffer (two counterexamples). Proved: exactly which writes stay inside, and that those drop the excess."
 },
 "C04": {
  "status": "partial",
  "note": "The code refuses some values that fit (fit test is made in double precision): counterexample for 2^60-1 in 60 bits. Proved: values read back, refused values leave the array unchanged, everything accepted below 2^53."
 },
 "C05": {
  "status": "partial",
  "note": "Integers. Refuted for signed char fields whose step exceeds 127; proved for every other integer serializer. Floating-point serializers are the subject of C97, vectors and quaternions of C98 and following."
 },
 "C06": {
  "status": "proved",
  "note": ""
 },
 "C07": {
  "status": "proved",
  "note": "Exact nanosecond semantics for every representable time; conversion is the identity for every 64-bit count."
 },
 "C08": {
  "status": "partial",
  "note": "The code violates the claim for > and >=: proved as C08_counterexample_unset_is_later. The == < <= half is proved."
 },
 "C09": {
  "status": "proved",
  "note": "For every buffer of at least uplink.len bytes."
 },
 "C10": {
  "status": "proved",
  "note": "Includes uniqueness of the parse and memory safety (execute never yields the out-of-bounds outcome)."
 },
 "C11": {
  "status": "proved",
  "note": "The JSON parsing and per-type value conversion before add_entry are not modelled: an entry is an index with the bits of the serialized value."
 },
 "C12": {
  "status": "partial",
  "note": "The code violates the claim: up to index width + 7 zero bits are accepted (counterexample with 8). The exact acceptance condition is proved."
 },
 "C21": {
  "status": "proved",
  "note": "For positive non-decreasing cycle numbers (cycle 0 is the subject of C23)."
 },
 "C22": {
  "status": "proved",
  "note": ""
 },
 "C23": {
  "status": "partial",
  "note": "Holds for every cycle but 0; refuted at cycle 0 by a concrete history."
 },
 "C57": {
  "status": "partial",
  "note": "Refuted in general (bit patterns above the last step decode above the maximum); proved when the number of values fills the bit width."
 },
 "C13": {
  "status": "partial",
  "note": "Proved end to end (flight frame through ground parser) for every frame that fits one packet and does not end on a packet boundary. Refuted for frames of two packets (lost header bit overwrites data, stale bit), for exactly full packets (parser erases past the end), and while flow 1 or flow 2 is switched off (the frame is taken for a continuation of the earlier one). Also found: duplicate flow ids are accepted at start-up."
 },
 "C14": {
  "status": "partial",
  "note": "Exact content of every frame bit proved for every reachable state; first header bit always set; refuted for second and later packets (bit written at byte offset/70)."
 },
 "C15": {
  "status": "partial",
  "note": "Exact criterion for an overrun proved (iff); holds whenever some slack from inactive flows exists; refuted for byte-aligned frames and for long frames."
 },
 "C16": {
  "status": "partial",
  "note": "Count, permutation and toggle proved for every reachable state; shift proved to move the flow exactly when all flows passed have equally many fields (iff); refuted otherwise and for ids above the number of flows."
 },
 "C20": {
  "status": "proved",
  "note": "For every sequence of registration calls. A refused fault registration can leave some of its fields registered (C20_fault_refused_leaves_fields)."
 },
 "C24": {
  "status": "proved",
  "note": "At the level of the fields' bit arrays; a storage of size 0 is accepted and its first signal is out of bounds."
 },
 "C17": {
  "status": "partial",
  "note": "Desktop build: proved in full. Flight computer: proved for the flight software's table of saved fields after one complete cycle; in general only values that fit one byte survive (counterexample: 300 comes back as 44)."
 },
 "C18": {
  "status": "partial",
  "note": "Desktop build: proved. Flight computer: false (erased bytes are read back as 255: boot count, kill switch, deployment counter); proved there for truth-valued fields."
 },
 "C19": {
  "status": "proved",
  "note": "For every memory content, both builds."
 },
 "C30": {
  "status": "partial",
  "note": "Proved: when standby is requested, which tank is vented, that venting of two faulted tanks is given up after 20 attempts, and that the handler gives the budget back. False in full: the budget stays at 1 if both tanks recover in the same cycle, and a ground change of the budget is undone by the handler (counterexamples)."
 },
 "C37": {
  "status": "proved",
  "note": "For every controller state, every history of cycles, interrupts and ground writes from construction."
 },
 "C38": {
  "status": "proved",
  "note": "For every sensor history in which the state is otherwise only written to disabled. If ground writes idle while pressurising, the tank-1 valve stays open (C38_counterexample_ground_idle)."
 },
 "C39": {
  "status": "partial",
  "note": "Proved when the controller starts its cycle disabled, and valves always; false for the schedule in the one cycle in which firing is refused (counterexample)."
 },
 "C40": {
  "status": "proved",
  "note": "For every schedule, any number of ticks and any interleaved calls."
 },
 "C41": {
  "status": "partial",
  "note": "False for a schedule value of 1000 ms: validated by the controller, refused by the driver, the controller then fires an empty schedule (counterexample). Proved for values below 1000 over the whole path from pressurised to firing."
 },
 "C25": {
  "status": "proved",
  "note": "For every list of handlers and for the flight list of nine."
 },
 "C26": {
  "status": "proved",
  "note": "For every fault state and mission state."
 },
 "C27": {
  "status": "proved",
  "note": "Exact response in every cycle of a silence of any length, plus the single-step rules from any state."
 },
 "C28": {
  "status": "proved",
  "note": "From every ladder state."
 },
 "C29": {
  "status": "proved",
  "note": "Exact characterisation over every history from construction (without ground writes to the handler's settings), plus bounds from any state."
 },
 "C58": {
  "status": "partial",
  "note": "The handler itself switches the radio back on (proved). Violated when an earlier fault handler answers safehold in the next cycle (counterexamples)."
 },
 "C31": {
  "status": "proved",
  "note": ""
 },
 "C32": {
  "status": "proved",
  "note": ""
 },
 "C33": {
  "status": "proved",
  "note": ""
 },
 "C60": {
  "status": "proved",
  "note": "Edges with their conditions, and that they are taken when the condition holds in a cycle without a fault response."
 },
 "C34": {
  "status": "partial",
  "note": "Proved on the desktop target for every history of cycles and reboots; on the Teensy it is violated when a reset interrupts the very first EEPROM save (counterexample), and proved for every history whose first save is not interrupted before the deployment counter is written."
 },
 "C35": {
  "status": "partial",
  "note": "Violated when an attempt is interrupted: the entry cycle is kept and a later attempt is given up at once (counterexample). Proved: exact duration of every attempt that starts with the entry flag clear, and that the flag is clear as long as no attempt is interrupted."
 },
 "C36": {
  "status": "partial",
  "note": "Violated under continuing radio silence, where every cycle restarts the timer (counterexample for any number of cycles). Proved when no further safehold-level fault occurs."
 },
 "C59": {
  "status": "partial",
  "note": "Violated when ground commands safehold (stale timer, counterexample). Proved for safehold entered because of a fault."
 },
 "C61": {
  "status": "partial",
  "note": "Exactly when the computer stops, that it stays stopped until a reboot, and what a reboot keeps on both builds. Violated after a reboot in docked and for a kill switch commanded less than 100 cycles before a reboot (counterexamples)."
 },
 "C62": {
  "status": "partial",
  "note": "Violated after a reboot in docking or docked: the radio stays off for any number of cycles (counterexample). Proved for boots into startup."
 },
 "C42": {
  "status": "proved",
  "note": "From every state, with any modem, at most limit+1 cycles after entry (waiting also lasts while the radio is power-cycled); every error or time-out leads through waiting to configuring."
 },
 "C43": {
  "status": "partial",
  "note": "Proved for all histories of the mission manager, fault handlers and radio manager in which ground does not write the radio fault handler's state (and does not command startup while that handler is at work); with such writes the configuration can start in the middle (counterexample)."
 },
 "C63": {
  "status": "proved",
  "note": "Every transition the mission manager makes by itself; ground writes of the mission state do not configure anything. An undefined mission state leads to safehold without stopping propulsion (C63_undefined_keeps_propulsion)."
 },
 "C44": {
  "status": "partial",
  "note": "Which bytes each delivered message carries, when a fresh snapshot is taken, and which bytes are covered. Violated: trailing bytes are never sent, and memory past the snapshot buffer is read and can be sent (counterexamples)."
 },
 "C45": {
  "status": "partial",
  "note": "Every accepted message has a matching length field and checksum over the bytes received. Violated for lengths above the buffer and for missing checksum bytes (counterexamples)."
 },
 "C64": {
  "status": "partial",
  "note": "Proved if no safehold-level fault is reported in the one cycle after the power cycle; otherwise the radio stays off (counterexample, for every such state)."
 },
 "C46": {
  "status": "partial",
  "note": "Exact switching protocol for readable outputs, other outputs left alone. Violated when the published output state is stale (counterexample)."
 },
 "C47": {
  "status": "partial",
  "note": "Violated: photovoltaic voltages go out least significant byte first, so they arrive as commanded only when both bytes are equal (counterexamples; exact characterisation)."
 },
 "C48": {
  "status": "partial",
  "note": "Follow, disable and reset protocols proved for all later cycles. Violated when disable and reset are commanded in the same cycle (counterexample)."
 },
 "C49": {
  "status": "partial",
  "note": "For a command kept until the end: never more than the computed number of steps, exactly that number when the configuration changes, and the turn ends, in every interleaving of interrupts and task. Violated for the default angle (one step short), withdrawn commands, angle 0 and delay 0 (counterexamples). The motor's power is in C114."
 },
 "C65": {
  "status": "partial",
  "note": "All fields except the boot counter, whose published value is wrong (counterexample)."
 },
 "C66": {
  "status": "partial",
  "note": "Proved after the first cycle. Violated in the first cycle (counterexample)."
 },
 "C67": {
  "status": "partial",
  "note": "Proved in terms of the published voltage, one cycle later. Violated while the supply's answers fail: the published voltage is stale (counterexample)."
 },
 "C68": {
  "status": "proved",
  "note": "Each command's frame is sent exactly once and the field cleared, in every combination."
 },
 "C69": {
  "status": "proved",
  "note": "Every state and answer."
 },
 "C70": {
  "status": "partial",
  "note": "Proved for every non-zero period. Violated for period 0 (counterexample)."
 },
 "C71": {
  "status": "proved",
  "note": "Every command in every history in which other tasks only switch the radio on and off. The numbers of the session status are inputs (sscanf is not modelled)."
 },
 "C72": {
  "status": "proved",
  "note": "Every history shorter than 2^32 cycles, whatever other tasks do to the radio. A negative status counts as a success in the code, and in the statement."
 },
 "C50": {
  "status": "partial",
  "note": "Lower bound always holds; upper bound only if the component along the rod is within the limit. Above the limit, and with a negative limit, it is false of the code (counterexamples)."
 },
 "C51": {
  "status": "partial",
  "note": "Delivered exactly and once when only one kind of order is given in a cycle; false when both kinds are (counterexample for all such cycles)."
 },
 "C52": {
  "status": "proved",
  "note": "All attitude states, exact messages, decoded values within the resolution of the bus format. The control laws themselves (gnc library) are inputs."
 },
 "C73": {
  "status": "proved",
  "note": "Interrupts between any two steps of the main loop; a step is one atomic register access as listed in Model/ADCSBox.lean."
 },
 "C74": {
  "status": "partial",
  "note": "Holds if speed control of the wheels is never selected; false otherwise (counterexample)."
 },
 "C75": {
  "status": "partial",
  "note": "False of the code: the wheels are never stopped (refuted for all states and histories). C75_stop_partial: the actuation that is never reached would stop them."
 },
 "C76": {
  "status": "partial",
  "note": "False of the code: nothing is switched off (refuted for all histories). C76_no_new_actuation_partial: no new actuation starts."
 },
 "C77": {
  "status": "proved",
  "note": "All histories and hardware behaviours; 'in service exactly as ordered' for rods, wheels and heater (other devices may drop out by themselves)."
 },
 "C78": {
  "status": "partial",
  "note": "Holds in the standby and docking pointing states; false in the manual pointing state (all histories)."
 },
 "C79": {
  "status": "proved",
  "note": "All reported and commanded values, cycles in which the supply answers."
 },
 "C80": {
  "status": "partial",
  "note": "Driven only on a reading below the target, for all histories; the converse protection (no heating without readings) is false of the code (C80_stuck)."
 },
 "C81": {
  "status": "partial",
  "note": "Torque control proved with rounding bounds while the potentiometer works; the direction in speed control is false of the code."
 },
 "C53": {
  "status": "partial",
  "note": "All byte streams and all cycles, against the bytes the driver takes for each message; end to end for messages of full size. Short messages are filled up with old bytes (C53_counterexample_short)."
 },
 "C82": {
  "status": "proved",
  "note": "All byte streams and cuttings. Error detection for bursts of up to 16 bits and odd numbers of bits."
 },
 "C83": {
  "status": "partial",
  "note": "All interleavings; exact up to the 32-bit wrap (71 minutes without a pause, five days of silence). Beyond that false (C83_counterexample_wrap); the first packet within 10 ms of start-up is dated from start-up (C83_first)."
 },
 "C84": {
  "status": "partial",
  "note": "False of the code: a thousand times too large, proved for every fix of full-size messages."
 },
 "C54": {
  "status": "proved",
  "note": "Every state and every library of filters. A reset command is also used up by its cycle (C54_reset_once)."
 },
 "C85": {
  "status": "proved",
  "note": "All histories; ages up to 100 ms (which C53_source ensures) and times below 2^64 ns."
 },
 "C86": {
  "status": "proved",
  "note": "All queues and all waiting times, for cycles with valid time and orbit and without a relative estimate; times that are set and fit in 64 bits of nanoseconds."
 },
 "C87": {
  "status": "partial",
  "note": "The freshness half is proved for all histories, and how long an estimate is kept, exactly (C87_kept), also for the one that follows it (C87_kept_anew). The other half is false of the code, for every gap (C87_counterexample_stale_baseline), and an estimate started after a reset can be dropped early (C87_counterexample_dropped_early)."
 },
 "C88": {
  "status": "partial",
  "note": "Proved for time, orbit and attitude, for every library. False for the relative orbit (C88_counterexample_relative)."
 },
 "C89": {
  "status": "proved",
  "note": "All histories, every library; cycle numbers positive and increasing, no ground override of the fault."
 },
 "C55": {
  "status": "proved",
  "note": "Every impulse, every rounding with a relative error of at most 1e-3 (1e-6 for the times), which includes single precision. The open times are proved to give the impulse to within one millisecond of thrust; up to 20000 Ns."
 },
 "C90": {
  "status": "partial",
  "note": "Gating, countdown and freshness are proved for every library and rounding. \"Ahead\" is the controller's own notion, with the angle taken unsigned, which is wrong on half the orbit (C90_counterexample_direction, C90_counterexample_node)."
 },
 "C56": {
  "status": "proved",
  "note": "All states and inputs of the composed tasks, with any library of orbit functions and any rounding; also that the satellite stays shut down over any number of cycles until a state is commanded. Not part of the property, and only partial: that the converters are off too (C56_converters_partial fails when a reset of the converters was commanded: C56_counterexample_reset). That the box obeys is C75 and C76, which show that it does not always."
 },
 "C91": {
  "status": "proved",
  "note": "For every sequence of durations. \"On time\" needs that each task's work and the overhead fit the slot (`Spec.Prompt`); without it nothing is promised but the order and not being early."
 },
 "C92": {
  "status": "proved",
  "note": "The two magnetometer modes are sent too but set back by the main loop in every pass; they are not part of the property."
 },
 "C93": {
  "status": "partial",
  "note": "The speeds are proved true in a pass over the wheels with working converters; the four counterexamples show where the property fails."
 },
 "C94": {
  "status": "proved",
  "note": "The accuracy is stated for the default filter setting; with another one the reading is by design a weighted mean of the past."
 },
 "C95": {
  "status": "proved",
  "note": "The accuracy is stated for the default filter setting and 0 to 3.3 V."
 },
 "C96": {
  "status": "partial",
  "note": "Table, faults and sun vector are proved; the flags of torque and field and the visibility of a silent box are refuted."
 },
 "C97": {
  "status": "partial",
  "note": "Accuracy and decoding are proved for every finite or infinite value and every suitable range (up to 20 bits for float, 48 for double); NaN, single-point ranges, the exact echo and the upper end of float fields of 25 bits or more are refuted."
 },
 "C98": {
  "status": "partial",
  "note": "Proved without rounding with 2.1 times the documented precision (C98_accuracy_partial), and with rounding in any arithmetic of a given accuracy, `float` and `double` among them, with a term for the rounding added (C98_rounded_partial), for ranges from zero or above and symmetric ones, except for a first component +0. The counterexamples refute the rest: positive zero, third axis, the documented precision itself, underflow, and with `float` the precision near the third axis. Missing with rounding: magnitudes and angles sent with 26 bits or more in `float` (the 50-bit magnitudes of the actuator commands; C97_counterexample_saturated)."
 },
 "C99": {
  "status": "partial",
  "note": "Proved for every quaternion other than zero without rounding, and with the rounding of every operation and overflow for every quaternion of float between 2^-61 and 2^63 long (C99_float_range_partial). Zero, NaN, underflow, overflow and arbitrary bits are refuted."
 },
 "C100": {
  "status": "proved",
  "note": ""
 },
 "C101": {
  "status": "partial",
  "note": "The zero error, the range and the rule of three failures are proved; that a calibration ends and leaves the magnetometer measuring is refuted, and proved if the magnetometer becomes ready."
 },
 "C102": {
  "status": "partial",
  "note": "The value and the rule of three failures are proved while the alert line rises; that reading ends is refuted."
 },
 "C103": {
  "status": "partial",
  "note": "Proved without rounding, for the sensor directions in the code and lit sensors that determine a direction; that these directions are those of sensors tilted by 20 degrees is refuted."
 },
 "C104": {
  "status": "partial",
  "note": "Proved for packets the tool makes of integers within their type, booleans, real numbers, GPS times in range, quaternions and vectors whose first component is not zero (the arithmetic on vectors and quaternions without rounding); and that every value of the range is taken for the integer fields whose format is derived from their range. Refuted for the five fields with a narrower format, numbers beyond the type, negative reals, GPS times out of range, and vectors whose first component is zero."
 },
 "C105": {
  "status": "partial",
  "note": "Printing is proved for all values that fit the buffer (C106). Reading back is proved, with powers of ten, except for unsigned numbers beyond the largest int (undefined), the set flag of GPS times (lost) and vector texts with too many components (out of bounds). Which texts are refused is proved. Hexadecimal numbers, infinities and NaN in texts are not modelled."
 },
 "C106": {
  "status": "partial",
  "note": "Proved for booleans, integers, real numbers from -99999 to 999999 (all real fields of the flight software), vectors with components within 9999 (velocities, relative positions, quaternions), and GPS times decoded from bits or within the documented ranges. Refuted for positions in orbit and larger numbers."
 },
 "C107": {
  "status": "partial",
  "note": "Proved for lines of up to five requests that the library accepts, none an uplink, with texts the fields take without undefined behaviour (C105, C106). The exceptions are the counterexamples. The JSON library is not modelled."
 },
 "C108": {
  "status": "partial",
  "note": "Proved for packets of 3 to 74 bytes (the ground tool makes at most 70). Shorter packets and wrong lengths are undefined."
 },
 "C109": {
  "status": "proved",
  "note": "The commands of a batch are arbitrary changes of state."
 },
 "C110": {
  "status": "partial",
  "note": "Setup, the error record and the attitude box's ping are proved; reports of working devices are proved to count failed setup pings only, which refutes the documented meaning; pings of the power supply are proved if the whole answer arrives and refuted otherwise."
 },
 "C111": {
  "status": "partial",
  "note": "Housekeeping groups and written configurations are proved; configurations read back are refuted (they destroy memory), and so is restoring the defaults."
 },
 "C112": {
  "status": "partial",
  "note": "Pressure, its thresholds and the temperature threshold are proved (the temperature within a hundredth of a degree of the exact formula); that readings stay in the calibrated range and that a dead coarse sensor is noticed are refuted."
 },
 "C113": {
  "status": "partial",
  "note": "Precision, channel, ambiguity and heartbeat readings, overall health, reset and save commands are proved; the log is proved to hold the levels of the latest 128 messages only; the SwiftNAP answer, the base position, the clearing dump, settings and user data are refuted."
 },
 "C114": {
  "status": "partial",
  "note": "Proved: exact movement with power on throughout, no movement in safehold, docked exactly on the switch. Refuted: reports without power, docking in the wrong configuration."
 },
 "C115": {
  "status": "partial",
  "note": "Proved: flown exactly on time if the pressure is reached while filling (C115_flown), and flown or reported if commanded in time (C115_enough_time). Refuted for manoeuvres commanded later, which is what the orbit controller does near the target."
 },
 "C116": {
  "status": "proved",
  "note": "The order and arguments of the calls are transcribed from the constructors (Model/StartupTable). The DESKTOP and unit-test variants are not modelled where they differ."
 },
 "C117": {
  "status": "partial",
  "note": "Proved: the table is accepted, the buffer is never overrun, a frame is produced in every cycle, and all but one of the payload bits of the default frame are in place. Refuted: bit 2 of the cycle number, the header of the second packet, parsing on the ground, toggle commands beyond 43 and nearly all shift commands."
 },
 "C118": {
  "status": "proved",
  "note": "Proved for all messages the flight computer sends; refuted for other values written to the register (C118_counterexample_stuck). Registers and vector are read and written whole in the model."
 },
 "C119": {
  "status": "proved",
  "note": ""
 },
 "C120": {
  "status": "partial",
  "note": "Proved for numbers, streams and bit arrays of whole bytes; refuted for other bit arrays (C120_counterexample_position, C120_counterexample_overwritten)."
 },
 "C121": {
  "status": "partial",
  "note": "Fields, types, sizes, limits, EEPROM periods, flows and priorities are proved for every wiring and table; the flow of a field in several, events in flows and reading back are refuted."
 },
 "C122": {
  "status": "partial",
  "note": "Proved for whole answers, and for the first five numbers (the flight software uses three of them) for every part of an answer; refuted for the sixth and for bytes that are no answer."
 },
 "C123": {
  "status": "partial",
  "note": "gain FOUR, the scale of the gyroscope and the scale of the second magnetometer are refuted; the chips' behaviour is taken from their data sheets."
 },
 "C124": {
  "status": "partial",
  "note": "whole numbers are shown exactly; vectors to twice the accuracy of the field if the first component held is not zero (C124_vector_partial; refuted otherwise: C124_counterexample_vanishes); other numbers to twice the accuracy, and the exact echo of them is refuted (C124_counterexample_pressure)."
 },
 "C125": {
  "status": "proved",
  "note": "the buffer itself is shared: encoding one field replaces the bits of another (proved too); every use reads the bits directly after writing them."
 },
 "C126": {
  "status": "proved",
  "note": "the power supply's time-out is not in the repository; the bound is shown to be reached (C126_pings_sharp)."
 },
 "C127": {
  "status": "partial",
  "note": "proved for modems whose messages have the announced length (C127_history, C127_command); otherwise refuted (C127_counterexample_length). Vectors and quaternions in command files as in C104."
 },
 "C128": {
  "status": "partial",
  "note": "Refuted for the safehold command alone (C128_counterexample_*); proved when propulsion disabled and attitude startup are commanded in the same packet, and when the radio gives up."
 },
 "C129": {
  "status": "partial",
  "note": "Proved for every history outside docking, startup, safehold and manual (and initialization hold for the wheels) as long as the ground leaves the faults, mission state and fault handling alone; refuted while docking."
 },
 "C130": {
  "status": "partial",
  "note": "Proved for every history in which ground leaves the three faults alone, from every state that notices faults; refuted while propulsion is disabled. In the last two cycles of a filling attempt the attempt is abandoned first."
 },
 "C131": {
  "status": "proved",
  "note": ""
 },
 "C132": {
  "status": "partial",
  "note": "Durations of exactly 1000 ms, which the propulsion controller accepts and the driver refuses, are excluded from the part about the valves (C41_counterexample_1000)."
 },
 "C133": {
  "status": "proved",
  "note": "The conditions are required when the manoeuvre is planned, as in the statement; that they need not hold any more when it is flown is shown by C133_counterexample_standby."
 },
 "C134": {
  "status": "proved",
  "note": "Cycles are assumed to be numbered from 1, as they are after a boot (Model/Boot.lean). A cycle that hangs (kill switch) has no successor."
 },
 "C135": {
  "status": "proved",
  "note": "The condition that nobody commands the two states is needed: C135_counterexample_commanded."
 },
 "C136": {
  "status": "proved",
  "note": "Of the estimates, the flags are linked between the estimators and the control tasks; the vectors the controllers compute with remain arbitrary inputs. How long ago the other satellite was heard of is not limited by the code: C136_counterexample_old."
 },
 "C137": {
  "status": "partial",
  "note": "Cycle to time is proved for all cycles. Time to cycle, and with it the round trip, holds exactly for the first 2³² µs (C137_counterexample_wraps)."
 },
 "C138": {
  "status": "proved",
  "note": "It is assumed that no other task or ground command writes the request, the shown output or the switching period after the request. C138_off_and_on is for a supply that obeys and answers truthfully (C46_counterexample_unread), and up to the next request of fault handling."
 },
 "C139": {
  "status": "proved",
  "note": "It is assumed that no other task or ground command writes the off command, in startup the mission state, or after it the request and the switching period."
 },
 "C140": {
  "status": "proved",
  "note": "`resize` stays callable by users (the header asks that only constructors use it) and is not among the operations; writes past the end are undefined behaviour and end the run."
 },
 "C141": {
  "status": "proved",
  "note": "The error code for a read-only field has no text (C141_counterexample_read_only); the console never reports it. Callers outside the console are assumed to pass members of the enumeration."
 },
 "C142": {
  "status": "proved",
  "note": "Flight build. A disconnection during which nothing is printed is not noticed by the code, and the theorems say so: they speak of the last call made without a connection."
 }
}