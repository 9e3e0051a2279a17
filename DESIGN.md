# Formal model of FlightSoftware in Lean 4

## Layout

* `lean/Verif/Model/*.lean` - executable model of the C++ code, function by function. Each definition
  cites the file and lines it models and says where it simplifies.
* `lean/Verif/Spec/*.lean` - small independent specifications (plain lists, counts, nanoseconds) that do
  not refer to the model's helpers.
* `lean/Verif/Lemmas/*.lean` - helper lemmas.
* `lean/Verif/Props/*.lean` - the property theorems (`C01_...`), each followed by an `example` showing a
  concrete non-trivial case that meets its hypotheses.
* `seeded/LOG.jsonl` - log of seeded bugs tried against the theorems.

## Trusted base

* Lean 4.33.0's kernel.
* The axioms `propext`, `Classical.choice`, `Quot.sound` and no others (no own axioms, no `sorry`, no
  `native_decide`/`bv_decide`). AXIOMS.md lists the axioms of each theorem (generated by `tools/axioms.py` from
  `#print axioms`).
* The hand translation from C++ to Lean. There is no extraction or parsing: each model definition cites
  the C++ lines so that the translation can be reviewed.
* Modelling conventions: unsigned integers are `BitVec n` (wrap-around as in C++) or `Nat` where the
  comment says why no wrap can happen; `unsigned int` is 32 bits; enums stored in state fields keep their
  raw integer value, so undefined enum values are represented; undefined behaviour (out-of-bounds access,
  division by zero, conversion of a NaN or out-of-range float to an integer, failed assertion, infinite loop)
  is a distinct outcome (`none`), never a default value.
* Floating point, in four ways; each module says which:
  * bit-exact rounding (`f32`, `f64`: exact rational operation, then round to nearest even) for the bus formats of
    the attitude control box (ADCSConv, ADCSReadings), the box monitor and the scalar serializers (FloatSer). NaN and
    infinities are separate values where they can occur;
  * an arbitrary rounding with stated properties, as a parameter (OrbitCtl, FloatSer), of which the two above are instances;
  * an arbitrary rounding and library of functions of stated accuracy on the real numbers (VectorSerRnd, QuaternionSerRnd, SerOverflow), of which the
    rounding of `float` and `double` (FloatReal, which agrees with `f32` and `f64` on the rationals) are instances;
  * an arbitrary function or arbitrary comparison results, where the property does not depend on the numbers (Estimators,
    attitude control, propulsion pressures and temperatures);
  * real numbers without rounding (VectorSer: the vector and quaternion serializers).
* Concurrency: both programs are single-threaded cyclic executives with interrupt routines. The valve timer, the docking
  step timer and the tick of the GPS receiver may run any number of times between two control tasks (and, for the GPS,
  between the steps of a read); the bus interrupt of the attitude control box may run between any two steps of its main loop.
  An interrupt inside a single step (a torn read or write of one field) is not modelled.

## What is modelled

COVERAGE.md lists, for every file, how many of its lines are cited by the model (generated by `tools/coverage.py`).

| part of the code | model modules |
|---|---|
| src/common: bit streams, bit arrays, GPS time, serializers (binary and text form), state fields, registry, events, faults, debug console and debug task | Bitstream, BitstreamOps, BitArray, FixedArray, ConsoleText, ConsoleTime, GPSTime, Serializer, FloatSer, VectorSer, VectorSerRnd, QuaternionSerRnd, SerOverflow, FloatReal, Text, Registry, Event, Fault, Console |
| src/fsw/FCCode: uplink, downlink and its flows, EEPROM, clock, main loop, timed tasks | Uplink, Downlink, EEPROM, Boot, Timing, ClockConv, System, WatchSys, DockSys, NavSys |
| construction of all control tasks (registrations and lookups), src/flow_data.cpp | Startup, StartupTable |
| src/gsw/parsers: downlink parser, tool that makes command packets, generator of the telemetry description | Downlink, Uplink, Ground, Echo, SharedBits, TelemInfo |
| fault handlers, mission manager | FaultHandlers, QuakeFH, PropFH, MissionManager |
| propulsion controller and driver, tank sensors, orbit controller | Prop, PropDriver, PropSensors, PropFH, OrbitCtl |
| radio driver, control task and manager | Quake, ModemText, RadioSys, UplinkSys |
| GPS driver with the SBP decoder of lib/common/libsbp, GPS control task, estimators | Sbp, Piksi, PiksiAux, Estimators |
| power, docking and regulator controllers and drivers | Power, GomConfig, Docking |
| bus devices of the flight computer | FlightI2C |
| src/prep: program that fills the tanks | Filling |
| attitude box driver, controller, monitor, commander, attitude controller | ADCSConv, ADCSFlight, ADCSReadings |
| src/adcs: firmware of the attitude control box: registers, bus interrupt, main loop, rods, wheels, sensor filters, device table, bus device drivers, sun vector | ADCSConv, ADCSBox, ADCSReadings, ADCSDev, SensorSetup, SunVector |

Not modelled:

* the guidance library (lib/common/psim and gnc): filters and control laws are arbitrary functions in Estimators and OrbitCtl;
* the JSON library under src/common/debug_console, whose results are inputs;
* src/adcs/imu_calibration.cpp, scripts, characterization, targets: test programs and constants;
* the sensor chips: only their bus transfers, and in Spec/SensorSetup their registers and scales as in the makers' data sheets (not in the repository);
* the C library, Arduino, Teensy and I2C/serial libraries: their results are inputs, with the contract stated where used;
* heap exhaustion and stack depth.

## When the code violates a property

The theorem states what the code does: the negation is proved with a concrete witness, and the part that
holds is proved with the suffix `_partial`. See the findings section.

## Plan per property

| id | property | model module | plan |
|---|---|---|---|
| C01 | Bit stream write/read round trip | Bitstream | `Bitstream.edit/editN/next/nextN` over a byte list with byte/bit offsets. Refine to an abstract bit list (LSB-first); induction over bytes. |
| C02 | Bit stream reads are sequential, bounded and peek is non-consuming | Bitstream | `next/nextN/peekN/seekG`; out-of-range byte reads are an explicit `none`. Refinement to `List.take/drop` on the abstract bits. |
| C03 | Bit stream writes never leave the buffer | Bitstream | Same model; memory accesses return `none` out of bounds. Expected false (edit at the end of the buffer); counterexample plus `_partial` for writes that fit. |
| C04 | Bit array integer conversion round trip | BitArray | `set_ullong/to_ullong/num_val_bits_ok` over bit lists and 64-bit values; induction on the width. |
| C05 | Integer field serialization: clamping, error bound and stability | Serializer | `IntegerSerializer` over Int with explicit range; arithmetic lemmas on floor division. |
| C06 | GPS time serialization is lossless on its documented range | Serializer | gps serializer as a composition of three integer serializers. |
| C07 | GPS time conversion and arithmetic agree with nanosecond arithmetic | GPSTime | gps_time_t on fixed-width integers; `omega` on week/tow/ns decomposition. |
| C08 | Unset GPS times never compare as later | GPSTime | operators as coded. Expected false for `>`/`>=`; prove the negation and the true half. |
| C09 | Rejected uplink packets change nothing | Uplink | validation and update passes over bit lists with an abstract registry; invariant of the validation loop. |
| C10 | Accepted uplink packets update exactly the listed fields | Uplink | validation pass and update pass shown to parse the same entry list (refinement to a parser spec). |
| C11 | Ground-produced uplinks are accepted and applied verbatim | Uplink | ground producer as an encoder; round trip by induction over the entries. |
| C12 | Uplink padding is at most seven zero bits | Uplink | characterise the accepted trailing bits; expected false (up to index_size+7 bits); counterexample plus exact bound. |
| C13 | Downlink frame round trip | Downlink, DownlinkFirst | frame writer and ground parser over bits; round trip for single-packet frames, counterexample for multi-packet frames; what the ground makes of frames without flow 1 or flow 2. |
| C14 | Downlink packet headers | Downlink | expected false: header bit is written at byte offset/70; counterexample and first-packet theorem. |
| C15 | Downlink buffer is never overrun | Downlink | size formula against writer positions; expected partly false. |
| C16 | Flow activation and priority commands | Downlink | toggle and shift on the flow table; invariant on the active count; permutation for equal-length flows; counterexample otherwise. |
| C17 | Saved fields survive a reboot | EEPROM | controllers for Desktop and Teensy with a memory map; invariant over cycle histories. |
| C18 | Fields not yet saved keep their default after a reboot | EEPROM | expected false on Teensy (erased cells read 255); counterexample; Desktop variant proved. |
| C19 | Reboot never resumes an active mission state | EEPROM | restore step for arbitrary memory content, by case analysis. |
| C20 | Registry names are unique and lookups are exact | Registry | registration sequence as a fold; uniqueness invariant by induction. |
| C21 | Fault trips after persistence consecutive cycles | Fault | fault object and history of calls; spec counts distinct signalled cycles in the history; induction over histories. |
| C22 | Fault override and suppress precedence | Fault | decision logic stated outright plus rising-edge reset. |
| C23 | A fault counts at most once per control cycle | Fault | expected false at cycle 0; counterexample and proof for every other cycle. |
| C24 | Event records round trip and ring buffering | Event | event record codec and ring; invariant relating ring to the last n records. |
| C25 | Main fault handler takes the most severe response | FaultHandlers | handler list fold with side effects; characterise result by quantifiers over the handler responses. |
| C26 | Simple faults only act in their mission states | FaultHandlers | active-state tables as literals; complete case analysis. |
| C27 | Radio fault ladder | QuakeFH | ladder state machine on 32-bit cycle counts; invariant over histories with ghost entry times. |
| C28 | Radio contact clears the radio fault | QuakeFH | case analysis. |
| C29 | GPS fault handler response | PiksiFH | case analysis plus 32-bit duration; note the dead-receiver fault gives standby in other states too. |
| C30 | Propulsion fault handling | Prop | handler and controller; invariant on the saved vent budget. |
| C31 | Safehold response wins immediately | MissionManager | decision logic stated outright for every state and input. |
| C32 | No autonomous exit from safehold | MissionManager | invariant over input sequences. |
| C33 | Standby response | MissionManager | decision logic. |
| C34 | Deployment wait is honoured across reboots | MissionManager | counter invariant over histories with reboots (uses EEPROM period 1). |
| C35 | Docking attempt times out relative to its own start | MissionManager | expected false (entry flag survives an interrupted attempt); counterexample plus theorem for uninterrupted attempts. |
| C36 | Safehold lasting a day reboots the spacecraft | MissionManager | expected false if the safehold response persists (timer restarts each cycle); theorem when it does not. |
| C37 | Thrusters fire only from the armed state on schedule | Prop | controller step over all states; trace theorem. |
| C38 | Pressurising and venting are bounded | Prop | open-close cycle counters; invariant over sensor histories. |
| C39 | Disabling propulsion closes everything | Prop | decision logic on controller + driver. |
| C40 | Valve open time never exceeds the schedule | PropDriver | interrupt tick as a function on four valves; potential-function induction. |
| C41 | Accepted firing schedules are executed | PropDriver | expected false at 1000 ms; counterexample and partial theorem below 1000. |
| C42 | Radio manager never hangs in a state | Quake | manager state machine against an arbitrary modem; bound by invariant on the cycle of entry. |
| C43 | Modem commands are issued in protocol order | Quake | control task sequence counters against an arbitrary modem. |
| C44 | Every byte of a snapshot is downlinked | Quake | packet index arithmetic; expected partly false (trailing partial packet). |
| C45 | Received messages are length- and checksum-checked | Quake | message reader on arbitrary bytes. |
| C46 | Power cycling an output | Power | driver and controller modelled byte by byte; history of cycles as a structure; exact switching times; frame theorem. |
| C47 | Power supply voltages are sent big-endian | Power | expected false: bytes swapped twice on a little-endian host; counterexample. |
| C48 | DC-DC converter command protocol | Power | DCDC step; theorems for each command over all later cycles; counterexample for both commands in one cycle. |
| C49 | Docking motor turns exactly half a turn per command change | Docking, Float32 | stepper with timer interrupts between and inside control cycles; invariant over all histories; single-precision rounding of the number of steps modelled exactly. |
| C50 | Magnetorquer commands are clamped to the limit | ADCSBox, ADCSFlight, ADCSConv | `mtr::actuate` in exact single precision; bounds with explicit rounding error; refuted above the limit. |
| C51 | Device reset and disable commands are independent | ADCSBox, ADCSFlight, ADCSConv | exact messages of a cycle; simulation of the box with pending tables; refuted for both kinds in one cycle. |
| C52 | Attitude actuation follows the attitude state | ADCSBox, ADCSFlight, ADCSConv | composition controller, commander, box controller; exact message list; decoded values with error bounds. |
| C53 | GPS readings are published atomically | Sbp, Piksi | driver and control task over the byte-level decoder; case analysis of a cycle against a specification of what was heard; induction over cycles; end-to-end theorems from encoded messages. |
| C54 | Estimator validity chain | Estimators | validity flags only; numeric filters are arbitrary functions. Induction over cycles. |
| C55 | Valve impulses are non-negative and produce the requested impulse | OrbitCtl | `schedule_valves` and `impulse_to_time` over an arbitrary monotone rounding with a relative error bound, of which exact and single precision arithmetic are instances; error analysis against the thruster directions. |
| C56 | Fault to actuator shut-down within one cycle | System | the mission manager, converter, attitude, box, orbit and propulsion tasks composed in loop order on their shared fields (`Model/System`), with valve timer interrupts between them; case analysis for the cycle of the fault, induction over the cycles after it. |
| C58 | The radio is switched back on after a ladder power cycle | QuakeFH, FaultHandlers | single-step theorem for the handler; counterexample where an earlier handler answers safehold in the cycle after, so the radio handler is skipped. |
| C57 | Decoded field values stay inside the documented range | Serializer | `IntegerSerializer::deserialize` on arbitrary bits; expected false for patterns above the last step; counterexample and exact value. |
| C59 | No reset before a full day in safehold | MissionManager | expected false for safehold commanded by the ground; theorem for safehold entered because of a fault. |
| C60 | The mission state moves only along the documented transitions | MissionManager | transition relation as an inductive specification; soundness and completeness for every state and input. |
| C61 | Kill switch | MissionManager, Boot | exact condition of the endless loop; counterexample after a reboot in docked. |
| C62 | The radio comes on after every boot | MissionManager, Boot | invariant that the radio stays off after a reboot in docking or docked; theorem for boots into startup. |
| C64 | The radio is switched back on after a power cycle | RadioSys | mission manager, fault handlers and radio manager in one control cycle; two-cycle theorem; invariant for a radio that stays off. |
| C63 | A mission transition configures the spacecraft in the same cycle | MissionManager | case analysis of `execute`, effects compared with a table; frame theorem for the other cycles. |
| C65 | Power supply readings are what the supply sent | Power | layout of the housekeeping struct with the in-place byte swaps; big-endian decoding as the specification. |
| C66 | The heater is switched only on command | Power | case analysis of one cycle, frame over histories; counterexample in the first cycle. |
| C67 | Low battery is reported | Power, Fault | composition with the fault model; counterexample for failed readings. |
| C68 | One-shot power supply commands are executed exactly once | Power | bytes sent in the cycle compared with the command code; field cleared. |
| C69 | The GPS receiver is held off on command | Power | one-cycle theorem for every state. |
| C70 | The power supply task accepts every ground setting | Power | totality of the step (`none` is undefined behaviour); counterexample for period 0. |
| C71 | Modem answers are checked and errors reported | Quake | table of expected answers as the specification; equivalence for every command; error code as a function of the call's result. |
| C72 | Contacts are recorded | Quake | invariant that a command sequence is under way only after the entry cycle; exact update theorem. |
| C73 | Commands are taken over whole and at most once | ADCSBox, ADCSFlight, ADCSConv | box as a transition system (messages interleaved with atomic steps of the main loop); invariant linking registers and locals to the history. |
| C74 | The attitude box never converts out of range | ADCSBox, ADCSFlight, ADCSConv | range invariant on registers; refuted with speed control. |
| C75 | Disabling the reaction wheels stops them | ADCSBox, ADCSFlight, ADCSConv | invariant that nothing changes; refuted. |
| C76 | A passive attitude box drives nothing | ADCSBox, ADCSFlight, ADCSConv | invariant that nothing changes; refuted; no new actuation proved. |
| C77 | Devices stay out of service until reset | ADCSBox, ADCSFlight, ADCSConv | induction over runs with the last order carried out. |
| C78 | Pointing torques need valid estimates | ADCSBox, ADCSFlight, ADCSConv | case analysis of the controller; refuted for the manual pointing state. |
| C79 | The tracker mode and converter voltages follow the ground command | Gomspace, Power | exact list of bus writes of a cycle, over the controller and driver models. |
| C80 | The gyroscope heater follows the last temperature reading | ADCSBox | induction over runs with the list of readings taken; the stuck heater as a theorem about runs without readings. |
| C81 | Wheel commands are carried out with the right size and direction | ADCSBox, ADCSConv | `rwa::actuate` in exact single precision with rounding bounds; monotonicity for the speed pulse; refuted for speed control. |
| C82 | Only intact messages of the GPS receiver are delivered, and noise does not stop it | Sbp | `sbp_process` byte by byte; equivalence with a stream automaton; checksum as a polynomial remainder, shown linear for error detection. |
| C83 | The age of GPS data is the time since its packet began | Piksi | the tick interrupt and `read_all` in any interleaving; invariant over the tick history, 32-bit counters. |
| C84 | GPS velocity and baseline are published in metres | Piksi | refuted: corollary of the end-to-end theorems of C53. |
| C85 | The time estimate is the last fix plus the time since | Estimators, GPSTime | `TimeEstimator::execute` over the exact `gps_time_t` arithmetic of C07; induction over cycles. |
| C86 | An uplinked orbit of the other satellite is used when it is due | Estimators, GPSTime | the queue of one uplinked orbit; invariant while it waits; comparison operators of C07. |
| C87 | The relative orbit estimate rests on recent baselines | Estimators | invariant tying the counter to the age of the last baseline. The second half is refuted for every gap. |
| C88 | A reset forgets | Estimators | relational invariant between two runs, for every library of filters; refuted for the relative orbit. |
| C89 | The magnetic field comes from a working magnetometer, and loss of attitude is reported | Estimators, Fault | case analysis of two consecutive cycles; the fault as a fold of evaluations, with C21. |
| C90 | Orbit control acts only when it may | OrbitCtl | `OrbitController::execute` over an arbitrary library of orbit functions; case analysis and induction over the list of nodes. |
| C91 | Tasks start at their planned times | Timing | the clock, the waiting loop and the statistics of `TimedControlTask` with an arbitrary duration for each piece of code and each poll (`Model/Timing`); induction over polls, tasks and cycles. |
| C92 | Box settings arrive as commanded | ADCSSettings | the messages of a cycle received by the box model in any interleaving; the settings are shown to be a function of the messages alone, then the error bounds of the conversions are applied. |
| C93 | Wheel readings are current and true | ADCSWheelReadings | the readings added to the box model; the good case by error bounds, the others refuted by invariants over all runs. |
| C94 | Magnetic field and rate readings are true | ADCSReadings, ADCSAsked | an invariant on the filtered values over all runs (the filter does not leave the range by more than a rounding error), then error bounds of filter, encoding and decoding; which register a request is answered with, by induction over the events. |
| C95 | Sun sensor voltages are true | ADCSMonitor | the same for the voltages. |
| C96 | The box monitor reports the box faithfully | ADCSMonitor | the monitor as a function of the previous state and the answers; faults reduced to C21 over the history. |
| C97 | Fields of real numbers are transmitted to within one step | FloatSer | the serializer over any ordered field with any rounding of bounded error; error bounds; then the roundings to float and to double (bit-exact, Model/Float32, Model/Float64) as instances. |
| C98 | Vectors are transmitted to their precision | VectorSer | the serializer over the real numbers, built on the one of C97; the distance of two vectors in polar coordinates is bounded by the differences of the coordinates. With rounding: error analysis of each operation for a library of given accuracy (VectorSerRnd). |
| C99 | Attitudes are transmitted to a hundredth | QuaternionSer | the same for the three smallest components; the largest is bounded through its square. With rounding: error analysis of each operation (QuaternionSerRnd). |
| C100 | A sensor that stops answering is taken out of service, and never shows data of a failed exchange | ADCSDev | the outcomes of all bus calls are inputs; induction over the list of exchanges, relating the counter to the run of failures at the end of the list. |
| C101 | Calibrating the second magnetometer removes its zero error and leaves it measuring | ADCSDev | the calibration step by step, with the configuration register of the chip; waits are lists of polls. |
| C102 | Wheel measurements are the values converted, and always come to an end | ADCSDev | the conversion on bit vectors; the wait for the alert line is a list of levels. |
| C103 | The sun vector is the direction of the sun | SunVector | over the real numbers, with the factorisation of the matrix library as a stated assumption (shown to be satisfiable); normal equations, least squares. |
| C104 | A command the ground tool takes is the command the satellite gets | Ground | per-value lemmas over the serializers of Serializer, FloatSer, VectorSer, QuaternionSer and GpsSerializer, then induction over the packet with the results of Uplink about the satellite's parser. |
| C105 | The text of a field says its value, and reads back as that value | Text | the conversions of `printf`, `sscanf`, `strtok` and `strtod` written out on character lists; a separate definition of what decimal text writes; induction over the digits. |
| C106 | Printing a field stays within its buffer | Text | bounds on the number of digits against the sizes in the code. |
| C107 | The console carries out every command on a line | Console | the search for messages and the loop over them, with the loop variable the body overwrites and the marks that are never initialised; what the JSON library makes of a message is an input; induction over the messages. |
| C108 | An uplink given to the console arrives like one received by radio | Console | the decoding of the text with every access to its buffers, uninitialised bytes included; induction over the bytes; composed with C11. |
| C109 | A cycle starts when the test bed asks for it | Console | induction over the batches of commands. |
| C110 | A device on the flight computer's bus that answers is held to work | FlightI2C | the error record and the counter as functions of the history, by induction against a specification that reads the history alone; pings on whatever number of bytes arrives, with the rest of the buffer left over from before |
| C111 | Parts of the power supply's data and configuration | GomConfig | the driver functions on byte memory; every byte-order conversion is local to its field; the reads of the configuration with the copy onto the pointer itself |
| C112 | The tank sensors' numbers | PropSensors | pressure in exact rounded arithmetic: monotone, so that a threshold needs the two numbers next to it; temperature over the reals within a hundredth of a degree, with bounds of the logarithm and of the 200th root |
| C113 | The GPS driver's status readings, log and commands | PiksiAux | on top of C82: the messages handed to the callbacks are those of the frames that arrived; a member is that of the last such message, by induction over the messages; the log as a ring, with the place of every message |
| C114 | The docking motor among the other tasks | DockSys | the control cycle from the mission manager to the docking task, with the step timer's interrupts between the tasks; invariants on steps made and interrupts to go over all histories, on top of C49, C56 and C60 |
| C115 | Manoeuvres are flown on time | Manoeuvre | step lemmas for undisturbed cycles of the model of C37 to C41; a measure (cycles left to fill) that stays below the countdown; the orbit controller of C90 for how much time is given |
| C116 | The flight software starts | Startup | the calls of the constructors as data (`Model/StartupTable`), run on the registry of C20; an exact condition for success by induction over the calls; the kernel checks the condition for the flight software by comparing names |
| C117 | Telemetry as configured | FlightTelemetry | C13 to C16 for the flow table of C116: the kernel computes the widths of the fields and flows; induction over cycles without flow commands |
| C118 | Sun vector handshake | SunHandshake, ADCSAsked | the box of C73: what each message and each step does to the two registers; a rank on the steps of the main loop that decreases to the step that stores; induction over events; the answers to the two requests, up to the step of the format |
| C119 | Propulsion without power | PropPower | the whole-cycle model of C56; every condition of entry asks for power, and neither the fault handlers nor the mission manager write another state than idle or disabled |
| C120 | Stream operators | BitstreamOps | the operators on top of the streams of C01, C02; induction over the items |
| C121 | The telemetry description | TelemInfo | maps as lists of entries on top of the start-up of C116; induction over the fields and the flows; the flight software's wiring is an instance |
| C122 | The modem's session status | ModemText, Quake | the numbers are scanned out of the bytes with the `sscanf` of Text; induction over the numbers of the answer, for every prefix; composed with C72 |
| C123 | Sensors are read as they were asked to be, and their numbers taken at the chips' scale | SensorSetup | the messages the drivers send, and in the specification the chips' registers as their makers describe them (data sheets are outside the repository and part of the trusted reading of the property); induction over the calls for the last setting; rational bounds from C94's accuracy to the physical quantity. |
| C124 | Telemetry shows the value that was commanded | Echo | composition of C104 (command file to field), the serializers (C05, C06, C97, C99) and C13 (frame to report); whole numbers are fixed points of encoding after decoding, for other numbers and for vectors (C98) the errors are added. |
| C125 | Fields that share their encoding buffer do not disturb each other | SharedBits | bits in cells that fields name; induction over report, command file and frame; for uplinks a simulation between the loop on cells and the loop on fields with bits of their own, then C11. |
| C126 | The program that fills the tanks closes every valve in time and keeps the power supply alive | Filling | the run as a list of actions, built by the same loops as the code; the closing condition is closed under concatenation and repetition; the time since the last reading is followed by a scan with a fixed point for the endless loop; durations are then added up. |
| C127 | Every message the modem hands over is carried out exactly once, in the next cycle | UplinkSys | the consumer and the radio manager in the order of the control loop; invariant: the message handed over in the last cycle lies whole in the buffer with its length, or the length is zero; the announced length is followed from the session report to the reading; composed with C09, C10 and C104. |
| C128 | Safehold commanded by the ground stops the actuators | CommandedSafehold | composition over the five tasks of `Sys.cycle`; refuted for every state by an exact description of the cycle; proved for the three commands together. |
| C129 | A low battery or a lost wheel shuts the actuators down in time | WatchSys | composition of the power supply task, the box monitor and `Sys.cycle` on the shared fields; an invariant on the fault counters over every history (they count the bad cycles in a row, and asking for a fault any number of times changes nothing), then C56 and C68. |
| C130 | A tank that stays over its pressure or too hot is vented in time | Venting | the three fault counters are followed through every function of the controller (only evaluated once per cycle and asked for), an invariant bounds them over every history, eleven bad readings raise the fault; then C30 for the two state changes, and the valve invariant of C37-C39 for the opening. |
| C131 | The propulsion rules in the flight software | Props/SysProp.lean | A refinement: every task before the propulsion controller is shown to touch it only by writes of the kinds `Ctl.run` allows (`propFH_writes`, `handlers_writes`, `manager_writes`, `cycle_writes`; writes commute with interrupts), and the invariant that propulsion is disabled with nothing scheduled during startup makes the writes disciplined. `C131_refines` gives the history of the controller with the same readings and cycle numbers; `C131_valves` and `C131_vented` carry over the invariant of C37 and C130. `manual` is shown unreachable without an uplink of the state. An uplink of the state itself is excluded (C37, C39 and C38 give counterexamples for it). |
| C132 | A planned manoeuvre in the flight software | Props/SysManoeuvre.lean | Builds on the refinement of C131, which also gives the writes of the mission manager one by one and says that the orbit controller keeps the countdown unless propulsion is idle. `quiet_step` turns a calm cycle of the system into an undisturbed cycle of the propulsion controller (C115); that no fault is tripped follows from the state after the cycle (`C30_fault_detected`). `C132_flown` and `C132_enough_time` then follow from C115, `C132_as_planned_partial` from C41. The state `CalmCycle` asks for durations of at most a second, because the orbit controller does not bound them (C90); durations of exactly 1000 ms are accepted and fire nothing (C41). |
| C133 | The thrusters fire only if somebody has planned it | SysPlan | an invariant of the composed tasks: without a plan the countdown stays 0, so no schedule is valid and the propulsion controller stays disabled, idle, handling a fault or venting; induction over the history |
| C134 | Nothing on the satellite acts during the deployment wait | SysWait | the counter of the wait after n cycles is its saved value plus n/100; while it is below 106 the mission manager keeps the three states; C39 and C52 for the controllers after it, C76 for the box; induction over the history |
| C135 | What the attitude box is told follows the mission state | SysAttitude | an invariant of the composed tasks (attitude state = the one documented for the mission state) from C60 and C63, by induction over the history; the messages of a cycle from C52 and C78 |
| C136 | From the sensors to the actuators | NavSys | the estimators in front of `Sys.cycle` on the flags they share; a history of both is a history of the control tasks with the flags the estimators publish, so C133 and C135 apply; what valid flags mean from C54 and C85; an invariant (nothing heard of the other satellite) for the relative orbit |
| C137 | Cycle numbers and clock times convert into each other | ClockConv | time as a natural number of microseconds as in C16, of which the program sees the low 32 bits; arithmetic modulo 2³² |
| C138 | The radio's power is cycled when radio fault handling asks for it | RadioPower | on the combined model of supply, monitor and control tasks (C129): a step lemma for the request through fault handler, manager and the later tasks; induction over the cycles until the supply task switches outputs; a run of all tasks is a history of the supply task, so C46 gives when the output is off and on |
| C139 | The GPS receiver is off during startup and switched on after it | GpsPower | on the combined model of supply, monitor and control tasks (C129): a case lemma for a cycle that starts in startup, induction over the cycles in startup, and C69 for what the supply is sent |
| C140 | Fixed arrays keep their size and are assigned as a whole or not at all | FixedArray | an invariant of the copying loop gives the result of an assignment; induction over the operations gives the size |
| C141 | Every message and error answer of the console carries a text of its own | ConsoleText | maps as lists of pairs, a null pointer as `none`; induction over the map, then all members of the enumerations |
| C142 | Time stamps of the console count from the last message without a connection | ConsoleTime | time as a natural number of which the program sees the low 32 bits; the start time after a history by induction over it; arithmetic modulo 2³² |

## Findings

Behaviour of the code at the pinned commit that breaks the natural reading of a property. Each line names the theorem.

| property | finding | theorem |
|---|---|---|
| C03 | `bitstream::edit` at the end of the buffer reads and writes one byte past it | `C03_*counterexample*` |
| C04 | `set_ullong` refuses some values that fit, because the check goes through a double logarithm | `C04_*` |
| C05 | integer step sizes are truncated for signed chars | `C05_*` |
| C08 | an unset GPS time compares as later than a set one with `>`/`>=` | `C08_*` |
| C12 | trailing padding of up to index width + 7 bits is accepted, not at most 7 | `C12_*` |
| C13, C14 | the packet header bit is written at byte `offset/70`; the ground parser erases `end()` for full packets and accepts duplicate flow ids | `C13_*`, `C14_*` |
| C15 | the size formula is one bit off per packet and the padding byte can lie beyond the buffer | `C15_*` |
| C16 | flow shift commands index out of bounds or assert on invalid ids | `C16_*` |
| C17, C18 | on the flight computer only the low byte of a saved value survives, and erased cells are read back as 255 | `C17_*`, `C18_*` |
| C20 | a refused fault registration leaves some of its fields registered | `C20_fault_refused_leaves_fields` |
| C23 | in cycle 0 a fault can be counted more than once | `C23_*` |
| C24 | an event storage of size 0 is accepted; its first signal is out of bounds | `C24_*` |
| C30 | the venting budget stays at 1 when both tanks recover in one cycle | `C30_counterexample_budget_lost` |
| C30 | a ground change of the venting budget is undone by the fault handler | `C30_counterexample_ground_budget_undone` |
| C38 | ground writing idle while the tank-1 valve is open leaves it open | `C38_counterexample_ground_idle` |
| C39 | a refused firing leaves the schedule set for one cycle | `C39_counterexample_refused_firing` |
| C41 | a valve time of 1000 ms is validated by the controller and refused by the driver, so the burn is skipped silently | `C41_counterexample_1000` |
| C26 | no hardware fault is acted upon in the docking state | `C26_nothing_in_docking` |
| C34 | if the first EEPROM save is interrupted, the next boot skips the deployment wait (Teensy) | `C34_counterexample_teensy` |
| C35 | the entry cycle of an interrupted docking attempt is kept; a later attempt is given up in its first cycle | `C35_counterexample_interrupted` |
| C36 | while the radio handler answers safehold, the 24-hour reset timer is restarted in every cycle | `C36_counterexample_radio_silence` |
| C58 | a safehold response of an earlier handler in the cycle after a radio power cycle leaves the radio off for up to eight hours | `C58_counterexample_*` |
| C59 | safehold commanded by the ground uses a stale timer: the reset can be commanded in the first cycle | `C59_counterexample_ground_safehold` |
| C61 | the saved kill switch has no effect if the saved mission state is docking or docked | `C61_counterexample_docked` |
| C62 | after a reboot in docking or docked the radio is never switched on | `C62_counterexample_docked` |
| C63 | an undefined mission state leads to safehold with propulsion and its converter left running and the designation kept (a fault stops them) | `C63_undefined_keeps_propulsion` |
| C61 | a kill switch commanded less than 100 cycles before a reboot can be lost (save period of 100 cycles) | `C61_counterexample_period` |
| C43 | ground writing the radio fault handler's state can restart the configuration in the middle, at its second command | `C43_counterexample_ground_ladder` |
| C44 | the bytes of a snapshot after the last full 70-byte packet are never sent (except for sizes below 70 or with remainder 0 or 69) | `C44_counterexample_tail` |
| C44 | the copy of a snapshot reads one byte (for small snapshots up to 70 bytes) past the snapshot buffer, and that memory can be transmitted | `C44_counterexample_overread`, `C44_counterexample_leak` |
| C45 | a received message longer than the receive buffer is accepted with its claimed length | `C45_counterexample_length` |
| C45 | missing checksum bytes are read as -1 and can be accepted | `C45_counterexample_missing` |
| C64 | low battery reported in exactly the cycle after a radio power cycle leaves the radio off for a third of a day; off with the handler in its normal state it stays off | `C64_counterexample_fault`, `C64_stays_off` |
| C57 | bit patterns above the last step decode to values above the documented maximum | `C57_*` |
| C46 | a power-cycle command is consumed without switching the output off if the published output state is stale | `C46_counterexample_unread` |
| C47 | 16-bit values in the power supply's voltage command are byte-swapped twice, so 4000 mV is sent as 40975 mV | `C47_counterexample_order`, `C47_counterexample_default` |
| C48 | a disable and a reset command in the same cycle leave both converters on, and the disable command is consumed | `C48_counterexample_both` |
| C48 | the initial commands are read from pins before they are configured; the first cycle switches the converters accordingly | `C48_boot_reads` |
| C49 | with the default step angle, single-precision rounding makes a half turn 5624 steps, one short of 5625 | `C49_counterexample_default` |
| C49 | a command withdrawn in mid-turn and repeated starts a full half turn from where the motor stopped | `C49_counterexample_withdrawn` |
| C49 | a step angle of 0 is undefined behaviour; a step delay of 0 starts a half turn that never ends | `C49_counterexample_zero`, `C49_counterexample_delay` |
| C65 | the 32-bit boot counter is swapped as 16 bits: only its upper half is published | `C65_counterexample_boot` |
| C66 | a failed heater reading in the first cycle (error code 2) turns the heater on | `C66_counterexample_first` |
| C70 | a power-cycle period of 0 divides by zero | `C70_counterexample_period` |
| C67 | while answers of the supply fail, a falling battery voltage is not reported (the old reading is used) | `C67_counterexample_stale` |
| C50 | `mtr::actuate` overwrites the upper clamp: a moment above the limit is driven unclamped; a negative limit drives every rod | `C50_above_limit`, `C50_counterexample_above`, `C50_counterexample_negative_limit` |
| C51 | the table of reset orders is not cleared before the disable orders are added: devices to be reset are taken out of service whenever some device is to be disabled in the same cycle | `C51_messages`, `C51_counterexample_both` |
| C74 | between the two messages of a change from speed to torque control the box may read the old speed as a torque; the conversion is far out of range | `C74_counterexample_mode_race` |
| C75 | the command message that follows wheel mode "disabled" is dropped by the box, so detumble, limited and zero-angular-momentum ("hard stop the wheels") leave the wheels turning | `C75_disabled_wheels_keep_turning`, `C75_never_stopped`, `C75_counterexample_detumble` |
| C76 | a box commanded passive keeps driving rods and wheels with the last values; so does safehold | `C76_passive_keeps_driving`, `C76_never_switched_off`, `C76_counterexample_safehold` |
| C52 | the zero-angular-momentum state commands zero moment and disabled wheels, so it removes no momentum | `C52_wheels_disabled`, `C52_rods_end_to_end`, `C75_never_stopped` |
| C78 | in the manual pointing state the last torque is kept and sent for as long as the estimates are invalid | `C78_point_manual_keeps_torque` |
| C80 | a heater that is on stays on while the gyroscope answers but has no new data, whatever target is commanded meanwhile | `C80_stuck` |
| C81 | in speed control the pulse is `1000 + 1000*s/max`, never negative, so the wheel is always driven in the same direction, whatever the sign of the speed | `C81_speed_never_reverses` |
| C81 | while the potentiometer is out of service a torque command leaves the wheels as they were | `C81_no_potentiometer` |
| C53 | a message shorter than its structure is filled up with what an earlier frame left in the buffer and passes as a fix | `C53_counterexample_short` |
| C83 | when the receiver sends without a 10 ms pause for 71 minutes the age wraps round to almost 0 | `C83_counterexample_wrap` |
| C84 | velocity (mm/s) and baseline (mm) are published without conversion in fields of m/s and m: a thousand times too large, and far outside the telemetry ranges of the fields | `C84_counterexample_velocity`, `C84_counterexample_baseline` |
| C87 | the time between the two baselines an estimate starts from is counted only in cycles that have a fixed baseline, and the age of the second is not subtracted: after a gap of any length (also across a reset) the relative velocity is computed as if 170 ms had passed | `C87_counterexample_stale_baseline` |
| C88 | a reset of the relative orbit estimator keeps the remembered baseline and the counter: an estimate is claimed on the first baseline after the reset | `C88_counterexample_relative` |
| C55 | when the first thruster comes out lowest, all four impulses are larger than needed: the equations multiply the added impulse by 1.69, which the correction ignores; and the "minimum norm" term is an integer division 1/152280838494 = 0 | `C55_counterexample_wasteful` |
| C55 | open times have no upper limit: an impulse above 0.0243 Ns on one thruster makes the whole schedule unacceptable to the propulsion controller, which then fires nothing | `C55_counterexample_too_much` |
| C90 | the angle to the sun is unsigned: while approaching the sun line the controller announces a node that lies behind the satellite, and the node at -pi/3 is never chosen | `C90_counterexample_direction`, `C90_counterexample_node` |
| C90 | the near-field nodes are two degrees apart whatever number of nodes is set: with 91 or fewer they are all on one half of the orbit | `C90_counterexample_half` |
| C90 | the near-field gain factor is a function static: changes of the number of nodes after the first activity do not change the gains | `C90_counterexample_gain` |
| C56 | a converter reset commanded by the ground in the cycle of a safehold fault switches the thruster and wheel converters on instead of off | `C56_counterexample_reset` |
| C91 | cycles can begin less than the promised 170 ms apart: the last task is not waited for, and 169.969 ms is reached | `C91_counterexample_short` |
| C91 | a task ready 36 to 71 minutes late is not counted as late and waits until the microsecond clock has come round again | `C91_counterexample_overflow` |
| C91 | the published average wait is the sum of the waits divided by the number of cycles plus one | `C91_counterexample_average` |
| C93 | The wheel readings are refreshed only together with a wheel command: with the wheels "disabled", or the box passive, the flight computer reads the same speeds and torques for ever, although the wheels keep turning (C75). | `C93_counterexample_frozen_when_disabled`, `C93_counterexample_frozen_when_passive` |
| C93 | Until the first wheel command the registers hold placeholders (400, -300, 200 rad/s); one torque placeholder is negative, so that answering a request is undefined behaviour. | `C93_counterexample_startup` |
| C93 | The torque format has no negative numbers, but two of the three wheels are mounted against their axis: any positive ramp voltage on them makes answering undefined behaviour. | `C93_counterexample_torque` |
| C93 | A wheel converter that is out of service does not keep its last value: the body-frame speed of another wheel is taken for its voltage and converted again. | `C93_counterexample_lost_converter` |
| C93 | The setting of the torque filter has no effect: torque readings use the speed filter. | `C93_counterexample_ramp_filter` |
| C94 | The mounting matrices of both magnetometers turn and mirror (determinant -1), which no mounting of a right-handed chip does; the gyroscope's turns. Which of matrix and chip axes is at fault is a matter of the intended mounting. | `C94_counterexample_mirrored`, `C94_gyroscope_turned` |
| C95 | A sun sensor channel at -14 mV or lower, or above 3.313 V, makes answering a request for the voltages undefined behaviour. | `C95_counterexample_negative` |
| C96 | The range flags of the torque and of both magnetometers are always set. | `C96_counterexample_flags` |
| C96 | If the box does not answer, the smallest value of every format is published as a reading (full speed backwards on all wheels), and the flags of speed, rate and temperature stay clear. | `C96_counterexample_silent` |
| C97 | A NaN in a transmitted field is undefined behaviour (conversion to an integer); so is any value of a field whose range is a single point. | `C97_counterexample_nan`, `C97_counterexample_single` |
| C97 | The upper end of a range is not always representable: a filter constant of 1 is reported as 254/255. | `C97_counterexample_upper_end` |
| C97 | A commanded value is not always reported back as commanded: the firing pressure commanded as step 2 is reported as step 1. | `C97_counterexample_echo` |
| C98 | Zero vectors, vectors along the z axis and NaN vectors make the telemetry undefined behaviour (a NaN angle is converted to an integer). With the default flows this happens in every control cycle: the pointing vectors are NaN unless the satellite points (AttitudeController.cpp:113-116), and the impulse of the orbit controller starts as zero. | `C98_counterexample_axis` |
| C98 | A vector whose x component is (positive) zero is transmitted with the sign of y reversed. | `C98_counterexample_mirrored` |
| C98 | The documented precision is exceeded (the angles are spread over pi, not over 1 as the bit-size formula assumes); the bound that holds is 2.1 times the precision. | `C98_counterexample_precision` |
| C98 | The ranges of `piksi.vel` (7570 to 7685 m/s) and `orbit.vel` (7160 to 7360 m/s) do not overlap, so that one of the two is always transmitted with a wrong length. Not stated as a theorem beyond `C98_accuracy_partial`, which moves the length into the range. | none |
| C99 | A zero or NaN quaternion makes the telemetry undefined behaviour, and not every pattern of bits decodes to a quaternion (the largest component can be the root of a negative number). | `C99_counterexample_zero`, `C99_counterexample_bits` |
| C101 | A second magnetometer that answers on the bus but does not become ready keeps the attitude control box waiting without end, at start-up and whenever a calibration is commanded (`single_read` only ends on bus errors). | `C101_counterexample_waits` |
| C101 | One bus error in the middle of a calibration leaves the magnetometer out of continuous mode but in service: no new readings come, the old one is shown as current, until it is calibrated or reset by command. | `C101_counterexample_frozen` |
| C102 | Reading a wheel converter waits for its alert line without a time limit (the limit is commented out), so that a converter which does not raise it stops the attitude control box, and the rule of three failures never applies. | `C102_counterexample_waits` |
| C103 | The directions of the sun sensors are computed with sine and cosine exchanged and with 20 radians instead of 20 degrees; the result is a tilt of 24.1 degrees. If the sensors are tilted by 20 degrees, as the names `s20` and `c20` say, the sun vector can be more than 5 degrees off with exact voltages. | `C103_counterexample_tilt` |
| C103 | Four lit sensors whose directions lie in a plane do not determine a direction, yet success is reported (the linear system is singular). | `C103_counterexample_plane` |
| C104 | The tool compares the value itself, not its code, with the width of the format: the battery threshold (5000 to 9000 mV in 10 bits) cannot be commanded at all and the converter voltages (up to 8500 mV in 9 bits) only up to 1023 mV. | `C104_counterexample_battery`, `C104_counterexample_converter` |
| C104 | For the same reason the docking timeout (6 bits) is only taken up to 127 control cycles, and each of these arrives as 0. | `C104_counterexample_docking_timeout` |
| C104 | Numbers beyond the type of a field wrap around before the range check, so that 256 + n is sent as n to a one-byte field such as the kill switch. | `C104_counterexample_wraps` |
| C104 | Negative values of -1 and below of a real field are converted to an unsigned number, which is undefined; the gyroscope heater's set point has the range -40 to 85. | `C104_counterexample_temperature` |
| C104 | GPS times are not checked; week 1999 goes out as week 2000. | `C104_counterexample_week` |
| C105 | Unsigned numbers are printed with `%u` but read with `%d`: above 2147483647 reading is undefined. | `C105_counterexample_unsigned` |
| C105 | Numbers beyond a one-byte type are reduced, not refused. | `C105_counterexample_wraps` |
| C105 | Writing a GPS time does not mark it as set, and a text refused as GPS time may already have changed the week. | `C105_counterexample_time`, `C105_counterexample_refused_time` |
| C105 | A vector text with too many components is written beyond the local array; words count as the number zero; and 150 bytes are read however short the text is. | `C105_counterexample_components`, `C105_counterexample_words` |
| C106 | The buffer for three components leaves room for two commas and values of 13 characters, but three commas are printed and values of a position in orbit have up to 15 characters: `orbit.pos`, `piksi.pos` and `rel_orbit.pos` overflow the heap buffer on the ground for almost every position. | `C106_counterexample_position` |
| C106 | Single values from one million, or down from minus one hundred thousand, overflow their buffer (no field of the flight software has such a range). | `C106_counterexample_real`, `C106_flight_reals` |
| C106 | GPS times with members far outside of their documented ranges overflow their buffer; times decoded from the downlink do not. | `C106_counterexample_time`, `C106_time_decoded` |
| C107 | The body for an uplink uses the variable of the loop over the messages (line 386): later messages on the line are passed over, or, if the uplink has fewer bytes than messages came before it, earlier ones are carried out again, without end. | `C107_counterexample_passed_over`, `C107_counterexample_never_ends` |
| C107 | The marks of good messages are never initialised: a message the library refused may be carried out. | `C107_counterexample_malformed` |
| C107 | A sixth message on a line is dropped without an answer; a brace inside of a value counts as a message; a value that is not a string is dereferenced as a null pointer. | `C107_counterexample_sixth`, `C107_counterexample_brace`, `C107_counterexample_value` |
| C108 | Only as many bytes of the token are cleared as the packet has (line 389): for packets of one or two bytes - a command for a single flag - the number is read on into uninitialised memory. | `C108_counterexample_short` |
| C108 | A length larger than the packet is not refused: the text is read beyond its buffer. | `C108_counterexample_length` |
| C97 | A `float` field of 25 bits or more keeps its previous bits when its value is at or above the upper end: the step does not fit and the failure of `set_ullong` is ignored. The magnitudes of `adcs_cmd.rwa_speed_cmd`, `rwa_torque_cmd` and `mtr_cmd` are such fields (50 bits), and commands on several axes are routinely longer than the limit of one axis. If nothing else has been sent before, the magnitude is reported as the lower end, which is negative. | `C97_counterexample_saturated`, `C97_counterexample_reversed` |
| C104 | A vector command with x = 0 is taken and arrives with the sign of y reversed: a pointing direction, torque or moment along the second axis becomes the opposite. | `C104_counterexample_mirrored` |
| C104 | A vector command along the third axis makes the ground tool undefined, and so does the zero vector: the wheels and magnetorquers cannot be commanded to zero by vector. | `C104_counterexample_axis` |
| C104 | The largest command on all axes is refused, since the per-axis limit is compared with the length of the vector. | `C104_counterexample_all_axes` |
| C110 | The error counter of a bus device is raised only by a failed ping during its setup. Reading the error record clears it without counting, so a device that fails in every cycle is reported as working with valid data for ever. | `C110_counterexample_never_counted` |
| C110 | The counter is not cleared by a success: three setups that each needed a second ping, and succeeded, leave the device reported as not working. | `C110_counterexample_in_a_row` |
| C110 | The bus timeout given to the constructor is taken in microseconds, the one set later in milliseconds: the attitude box is built with 1 ms instead of 1 s. | `C110_counterexample_timeout` |
| C110 | The power supply driver reads into an uninitialised stack buffer and does not look at the number of bytes read: with a silent supply the former answer on the stack counts as the new one, for pings, commands and housekeeping data. | `C110_counterexample_silence`, `C110_counterexample_stale_answer` |
| C110 | `i2c_receive_data` drops a message that arrived whole if an earlier error has not been read. | `C110_counterexample_receive` |
| C111 | `config_get` and `config2_get` copy the answer onto the pointer member instead of the object: 50 (16) bytes behind the driver object are overwritten, then the byte order is converted wherever the answer's first four bytes point. | `C111_counterexample_config`, `C111_counterexample_config2` |
| C111 | `restore_default_config2` sends the command that commits a new configuration, not the one that restores the defaults. | `C111_counterexample_restore` |
| C111 | The reads of single housekeeping groups do not compare the port in the answer. | `C111_counterexample_port` |
| C112 | The coarse pressure sensor is believed alone whenever the fine one is near its end: if it reads nothing, a tank over its safe pressure is reported as all but empty, so that neither venting nor the over-pressure fault follows. | `C112_counterexample_coarse` |
| C112 | The temperature is not bounded to the calibrated -55 to 150 degrees: the converter's 1 reads above 254 degrees, its 1023 below -117; the branch for -55 is never taken. | `C112_counterexample_range` |
| C113 | The test of the SwiftNAP's health looks at the bits of the system and I/O tests; the SwiftNAP's own bit is taken for the antenna's. | `C113_counterexample_swiftnap` |
| C113 | Asked for the base station's position the driver gives the receiver's own. | `C113_counterexample_base` |
| C113 | Of log messages only the level is kept, never the text; dumping the log does not clear it, against its documentation. | `C113_counterexample_log_text`, `C113_counterexample_dump` |
| C113 | Writing settings and sending user data send an empty message whatever the argument (the size of a structure with an array of length zero). | `C113_counterexample_settings` |
| C114 | The docking task never asks whether its motor is powered: with the converter off (safehold, startup, or a ground command) a half turn is reported as carried out although the motor has not moved. | `C114_counterexample_unpowered` |
| C114 | Docking begins on the commanded configuration, not the reported one: the mechanism can still be in the other configuration and not even turning. | `C114_counterexample_configuration` |
| C98 | With the rounding of `float`, vectors whose components are below 2^-75 cannot be transmitted at all (their squares underflow and the direction becomes NaN). | `C98_counterexample_underflow` |
| C98 | With the rounding of `float`, the direction near the third axis is lost (the arc cosine magnifies the rounding error to its square root): for `attitude_estimator` rate biases (0 to 0.35, precision 14) even 2.1 times the precision is exceeded. | `C98_counterexample_pole` |
| C115 | A manoeuvre commanded with less time than the fillings need is dropped without any report when the tank is not at pressure two cycles before: the propulsion system goes back to idle. | `C115_counterexample_dropped` |
| C115 | The orbit controller has no lower bound on the time it gives: near the target its firing nodes are two degrees apart, so that with the default parameters it always gives less than half of the time the fillings can take. | `C115_counterexample_near` |
| C116 | The check that flow identifiers are unique never records an identifier, so a duplicate would be accepted (the table has none). Two groups of fields are in no flow: the timing of the orbit and propulsion tasks and the last device of the attitude box; one is in two. | `C117_flight_accepted` |
| C117 | In the default configuration the first flow reports the cycle number with the bit of value four cleared, because the header of the second packet is written at bit 64 instead of bit 560: in every second group of four cycles the ground is told a number that is four too small. | `C117_counterexample_cycle_number` |
| C117 | Both packets of the default frame are exactly 70 bytes long, for which the ground parser erases past the end of its bits. | `C117_counterexample_ground` |
| C117 | Twenty of the sixty-four values that the toggle command can carry stop the flight software. | `C117_counterexample_toggle` |
| C117 | Of the 1806 commands that shift a flow to the place of another, fourteen work after start-up; the others access memory outside a flow. | `C117_counterexample_shift` |
| C118 | A value other than the three modes written to the register is accepted and is never left again: the box calculates no sun vector and takes no request until it is powered off. (The flight software writes no such value.) | `C118_counterexample_stuck` |
| C119 | A firing during which the converter is switched off goes on in software until its schedule has run out, and is not reported as failed. | `C119_exact` |
| C120 | A bit array whose size is not a multiple of eight is put into a stream as whole bytes: up to seven bits behind it are overwritten with what lies in memory behind the array, and the position ends behind them. | `C120_counterexample_position`, `C120_counterexample_overwritten` |
| C99 | A quaternion of `float` whose components are all below 2^-75 makes the telemetry undefined behaviour: its squares underflow and it is divided by zero. | `C99_counterexample_underflow` |
| C121 | A field listed in two flows is described as being in the later only (in the flight software the battery heater's command, flows 35 and 37). | `C121_counterexample_two_flows`, `C121_flight` |
| C121 | An event in a flow is described as a field of no type and no bits. | `C121_counterexample_not_a_field` |
| C121 | A description cannot be read back: the fields are written under "fields" and read under "field_data", and a field's size is read as a truth value. | `C121_counterexample_readback`, `C121_counterexample_field_readback` |
| C122 | The number of messages waiting is recorded short of digits if the answer is read before its end has arrived. | `C122_counterexample_sixth` |
| C122 | The first eight bytes of the answer to a session request are not looked at. | `C122_counterexample_header` |
| C123 | The converter gain called FOUR has the wrong code (0x0500 for 0x0600): the chip measures over 2.048 V where the header promises 1.024 V. The box does not use this gain. | C123_counterexample_four |
| C123 | Rates of turn are reported at 87 % of their value: set to 125 degrees per second the gyroscope delivers 4.375 thousandths of a degree per second per unit, so sixteen bits reach to 143.36, but the box takes full scale to be 125. | C123_counterexample_rate |
| C123 | The second magnetometer's field is reported at half its value: the driver halves the difference to zero field, and the scale is that of the undivided number (16 gauss for 32768 units). | C123_counterexample_field2 |
| C124 | A firing pressure commanded as 20 is held as 19.52 and shown as 18.89: encoding a decoded value can lose a step, so telemetry does not confirm the value on board. | C124_counterexample_pressure |
| C124 | A commanded vector shorter than one step of its field (an impulse of 5 micro N s, say) is taken and held as the zero vector; reporting a vector whose first component is zero then divides by zero, so the telemetry of that field is undefined from then on. | C124_counterexample_vanishes |
| C127 | The consumer is given the length of the session report, not that of the message read: if the modem announces more than 341 bytes, the consumer reads beyond the message buffer. | C127_counterexample_length |
| C99 | A quaternion of float with a component of 2^64 or more overflows when its length is taken and is transmitted as (1, 0, 0, 0), whatever rotation it stands for. | C99_counterexample_overflow |
| C98 | A vector of float with a component of 2^64 or more is not cut off at the limit of its field: its length overflows and an angle that is not a number is converted, which is undefined. | C98_counterexample_overflow |
| C111 | Switching the heater is held to have succeeded even if the power supply reports the heater in the other state: the comparison stands behind `1 == (1 | 2)`, which is false. | C111_counterexample_heater |
| C128 | Safehold commanded by the ground stops nothing: the attitude control box is still told to be active, the converters stay on, a scheduled thruster firing still begins, and in safehold low battery and failed wheels are no longer answered. | C128_counterexample_nothing_stops |
| C129 | While docking a low battery and lost wheels are ignored: the manager goes on with the attempt, attitude state and converters as before. | C129_counterexample_docking |
| C130 | While propulsion is disabled (startup, safehold, after a failed venting) an over-pressured or overheated tank is not vented at all: `can_enter` of fault handling refuses when disabled, and nobody but ground or the mission manager leaves that state. | C130_counterexample_disabled |
| C13 | the ground takes a packet for the start of a frame only if flows 1 and 2 are both in it, and the flight software lets either be switched off: from then on a frame is appended to the bytes received before, and the ground reports the control cycle number of the earlier frame | `C13_continued_partial`, `C13_counterexample_flow_off` |
| C133 | A manoeuvre is not called off when the conditions for it end: with the tank waiting to be filled, a command that takes the satellite out of following to standby does not stop it, and the thrusters fire in standby. | `C133_counterexample_standby` |
| C135 | A mission state commanded by the ground does not bring its attitude state along: commanded to standby during the deployment wait, the satellite stays in standby with attitude control in startup, and tells the box to be passive in every cycle. | `C135_counterexample_commanded` |
| C136 | There is no limit on the age of what the satellite knows of the other one: once known, the relative orbit is propagated over any number of cycles without a baseline, counts as valid, and the orbit controller plans on it. The limit of 5000 cycles ends only the state `estimating`. | `C136_counterexample_old` |
| C87 | The count of cycles without a baseline is not restarted with the estimate: after a reset late in a period without baselines, a new estimate of the relative orbit is dropped after its first cycle without one. | `C87_counterexample_dropped_early` |
| C137 | The clock manager can name only the first 25264 cycles: a time more than 71 minutes after the start of cycling is converted to a cycle number that is too small. (Nothing in the flight software calls the conversion.) | `C137_counterexample_wraps` |
| C141 | The map of error texts is declared with seven entries but has six: the code for a write to a field that can only be read has no text, and reporting it would end the program. At present nothing reports it. | `C141_counterexample_read_only` |

## Seeded edits (seeded/LOG.jsonl)

Each edit is applied to a scratch copy, which is then rebuilt. `failed` lists the property theorems that no longer
check: those whose own proof is rejected, and those that use a rejected declaration according to the constants recorded
in the compiled modules. `failed_lemmas` lists the other declarations that were rejected themselves. A theorem in
`failed` only through a lemma has lost its proof, which does not by itself show that its statement became false.
Modules downstream of a rejected one are not compiled, so `failed` can omit theorems that would fail there.
An earlier version of the log found users of a declaration by matching names in the text. All entries were rerun
with the recorded constants; two entries had wrongly named `C22_no_command_answer`, and twelve omitted theorems.
The entries for C140 to C142 come from compiling the edited model and the theorems as one file; the users of a rejected
declaration were added from the text of the proofs.
