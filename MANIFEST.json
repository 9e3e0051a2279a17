{
 "claims": [
  {
   "property": "C01",
   "status": "proved",
   "theorems": [
    "PAN.C01_write_exact",
    "PAN.C01_write_then_read",
    "PAN.C01_write_sequence"
   ],
   "note": "Every write that fits changes exactly the addressed bits and reads back; also for sequences of writes."
  },
  {
   "property": "C02",
   "status": "proved",
   "theorems": [
    "PAN.C02_read_sequential",
    "PAN.C02_peek",
    "PAN.C02_seek",
    "PAN.C02_read_bit_array"
   ],
   "note": "Reads, peeks, seeks and reads into bit arrays for every stream, position and length."
  },
  {
   "property": "C03",
   "status": "partial",
   "theorems": [
    "PAN.C03_counterexample_write_past_end",
    "PAN.C03_counterexample_write_across_end",
    "PAN.C03_write_in_bounds_iff_partial",
    "PAN.C03_excess_dropped_partial"
   ],
   "note": "The code violates the claim: writes starting at or crossing the end touch memory beyond the buffer (two counterexamples). Proved: exactly which writes stay inside, and that those drop the excess."
  },
  {
   "property": "C04",
   "status": "partial",
   "theorems": [
    "PAN.C04_read_value",
    "PAN.C04_store_read_partial",
    "PAN.C04_store_safe",
    "PAN.C04_store_uint",
    "PAN.C04_counterexample_large_value_refused"
   ],
   "note": "The code refuses some values that fit (fit test is made in double precision): counterexample for 2^60-1 in 60 bits. Proved: values read back, refused values leave the array unchanged, everything accepted below 2^53."
  },
  {
   "property": "C05",
   "status": "partial",
   "theorems": [
    "PAN.C05_roundtrip_partial",
    "PAN.C05_monotone_partial",
    "PAN.C05_counterexample_signed_char_step",
    "PAN.C05_range_constructor_exact",
    "PAN.C05_sized_constructor_partial"
   ],
   "note": "Integers. Refuted for signed char fields whose step exceeds 127; proved for every other integer serializer. Floating-point serializers are the subject of C97, vectors and quaternions of C98 and following."
  },
  {
   "property": "C06",
   "status": "proved",
   "theorems": [
    "PAN.C06_gps_roundtrip",
    "PAN.C06_gps_unset",
    "PAN.C06_gps_any_history"
   ],
   "note": ""
  },
  {
   "property": "C07",
   "status": "proved",
   "theorems": [
    "PAN.C07_nanoseconds_round_trip",
    "PAN.C07_time_round_trip",
    "PAN.C07_add_nanoseconds",
    "PAN.C07_add_times",
    "PAN.C07_sub_nanoseconds",
    "PAN.C07_sub_times",
    "PAN.C07_order_is_nanosecond_order"
   ],
   "note": "Exact nanosecond semantics for every representable time; conversion is the identity for every 64-bit count."
  },
  {
   "property": "C08",
   "status": "partial",
   "theorems": [
    "PAN.C08_unset_never_less_or_equal_partial",
    "PAN.C08_counterexample_unset_is_later",
    "PAN.C08_counterexample_unset_minus_becomes_set"
   ],
   "note": "The code violates the claim for > and >=: proved as C08_counterexample_unset_is_later. The == < <= half is proved."
  },
  {
   "property": "C09",
   "status": "proved",
   "theorems": [
    "PAN.C09_consume",
    "PAN.C09_rejected_changes_nothing",
    "PAN.C09_no_packet"
   ],
   "note": "For every buffer of at least uplink.len bytes."
  },
  {
   "property": "C10",
   "status": "proved",
   "theorems": [
    "PAN.C10_accepted_updates_exactly",
    "PAN.C10_change_only_when_accepted",
    "PAN.C10_updates_unique"
   ],
   "note": "Includes uniqueness of the parse and memory safety (execute never yields the out-of-bounds outcome)."
  },
  {
   "property": "C11",
   "status": "proved",
   "theorems": [
    "PAN.C11_ground_to_space"
   ],
   "note": "The JSON parsing and per-type value conversion before add_entry are not modelled: an entry is an index with the bits of the serialized value."
  },
  {
   "property": "C12",
   "status": "partial",
   "theorems": [
    "PAN.C12_counterexample_eight_bits_of_padding",
    "PAN.C12_padding_partial"
   ],
   "note": "The code violates the claim: up to index width + 7 zero bits are accepted (counterexample with 8). The exact acceptance condition is proved."
  },
  {
   "property": "C13",
   "status": "partial",
   "theorems": [
    "PAN.C13_roundtrip_partial",
    "PAN.C13_short_frame_partial",
    "PAN.C13_short_packet_received_partial",
    "PAN.C13_counterexample_two_packets",
    "PAN.C13_counterexample_full_packet",
    "PAN.C13_counterexample_duplicate_ids_accepted",
    "PAN.C13_continued_partial",
    "PAN.C13_counterexample_flow_off"
   ],
   "note": "Proved end to end (flight frame through ground parser) for every frame that fits one packet and does not end on a packet boundary. Refuted for frames of two packets (lost header bit overwrites data, stale bit), for exactly full packets (parser erases past the end), and while flow 1 or flow 2 is switched off (the frame is taken for a continuation of the earlier one). Also found: duplicate flow ids are accepted at start-up."
  },
  {
   "property": "C14",
   "status": "partial",
   "theorems": [
    "PAN.C14_frame_content_partial",
    "PAN.C14_single_packet_partial",
    "PAN.C14_counterexample_second_header"
   ],
   "note": "Exact content of every frame bit proved for every reachable state; first header bit always set; refuted for second and later packets (bit written at byte offset/70)."
  },
  {
   "property": "C15",
   "status": "partial",
   "theorems": [
    "PAN.C15_overrun_iff_partial",
    "PAN.C15_inactive_slack_partial",
    "PAN.C15_counterexample_aligned_frame",
    "PAN.C15_counterexample_long_frame"
   ],
   "note": "Exact criterion for an overrun proved (iff); holds whenever some slack from inactive flows exists; refuted for byte-aligned frames and for long frames."
  },
  {
   "property": "C16",
   "status": "partial",
   "theorems": [
    "PAN.C16_flows_preserved",
    "PAN.C16_toggle",
    "PAN.C16_shift_partial",
    "PAN.C16_no_command",
    "PAN.C16_commands_cleared",
    "PAN.C16_counterexample_shift_different_sizes",
    "PAN.C16_counterexample_invalid_toggle"
   ],
   "note": "Count, permutation and toggle proved for every reachable state; shift proved to move the flow exactly when all flows passed have equally many fields (iff); refuted otherwise and for ids above the number of flows."
  },
  {
   "property": "C17",
   "status": "partial",
   "theorems": [
    "PAN.C17_desktop",
    "PAN.C17_teensy_exact",
    "PAN.C17_teensy_partial",
    "PAN.C17_flight_fields_fit",
    "PAN.C17_teensy_flight",
    "PAN.C17_counterexample_teensy_wide"
   ],
   "note": "Desktop build: proved in full. Flight computer: proved for the flight software's table of saved fields after one complete cycle; in general only values that fit one byte survive (counterexample: 300 comes back as 44)."
  },
  {
   "property": "C18",
   "status": "partial",
   "theorems": [
    "PAN.C18_desktop",
    "PAN.C18_teensy_bool_partial",
    "PAN.C18_counterexample_teensy_erased",
    "PAN.C18_counterexample_teensy_deployment"
   ],
   "note": "Desktop build: proved. Flight computer: false (erased bytes are read back as 255: boot count, kill switch, deployment counter); proved there for truth-valued fields."
  },
  {
   "property": "C19",
   "status": "proved",
   "theorems": [
    "PAN.C19_no_active_state",
    "PAN.C19_flight"
   ],
   "note": "For every memory content, both builds."
  },
  {
   "property": "C20",
   "status": "proved",
   "theorems": [
    "PAN.C20_unique",
    "PAN.C20_refused_iff_taken",
    "PAN.C20_fault_registration",
    "PAN.C20_lookup_exact",
    "PAN.C20_lookup_stable",
    "PAN.C20_fault_refused_leaves_fields"
   ],
   "note": "For every sequence of registration calls. A refused fault registration can leave some of its fields registered (C20_fault_refused_leaves_fields)."
  },
  {
   "property": "C21",
   "status": "proved",
   "theorems": [
    "PAN.C21_fault_trips_after_persistence",
    "PAN.C21_fault_trips_on_consecutive_evaluations"
   ],
   "note": "For positive non-decreasing cycle numbers (cycle 0 is the subject of C23)."
  },
  {
   "property": "C22",
   "status": "proved",
   "theorems": [
    "PAN.C22_override_forces_fault",
    "PAN.C22_suppress_masks_fault",
    "PAN.C22_command_restarts_count",
    "PAN.C22_no_command_answer"
   ],
   "note": ""
  },
  {
   "property": "C23",
   "status": "partial",
   "theorems": [
    "PAN.C23_one_count_per_cycle_partial",
    "PAN.C23_counterexample_cycle_zero"
   ],
   "note": "Holds for every cycle but 0; refuted at cycle 0 by a concrete history."
  },
  {
   "property": "C24",
   "status": "proved",
   "theorems": [
    "PAN.C24_event_roundtrip",
    "PAN.C24_ground_reads_record",
    "PAN.C24_ring_holds_last",
    "PAN.C24_empty_storage_out_of_bounds"
   ],
   "note": "At the level of the fields' bit arrays; a storage of size 0 is accepted and its first signal is out of bounds."
  },
  {
   "property": "C25",
   "status": "proved",
   "theorems": [
    "PAN.C25_most_severe",
    "PAN.C25_disabled",
    "PAN.C25_flight_safehold",
    "PAN.C25_flight_standby"
   ],
   "note": "For every list of handlers and for the flight list of nine."
  },
  {
   "property": "C26",
   "status": "proved",
   "theorems": [
    "PAN.C26_simple",
    "PAN.C26_nothing_in_docking",
    "PAN.C26_polled",
    "PAN.C26_startup"
   ],
   "note": "For every fault state and mission state."
  },
  {
   "property": "C27",
   "status": "proved",
   "theorems": [
    "PAN.C27_step",
    "PAN.C27_waits",
    "PAN.C27_timeline"
   ],
   "note": "Exact response in every cycle of a silence of any length, plus the single-step rules from any state."
  },
  {
   "property": "C28",
   "status": "proved",
   "theorems": [
    "PAN.C28_contact_clears",
    "PAN.C28_contact_clears_next"
   ],
   "note": "From every ladder state."
  },
  {
   "property": "C29",
   "status": "proved",
   "theorems": [
    "PAN.C29_standby_iff",
    "PAN.C29_any_state"
   ],
   "note": "Exact characterisation over every history from construction (without ground writes to the handler's settings), plus bounds from any state."
  },
  {
   "property": "C30",
   "status": "partial",
   "theorems": [
    "PAN.C30_standby",
    "PAN.C30_vents_right_tank",
    "PAN.C30_fault_detected",
    "PAN.C30_handling_fault",
    "PAN.C30_budget_restored_partial",
    "PAN.C30_gives_up",
    "PAN.C30_counterexample_budget_lost",
    "PAN.C30_counterexample_ground_budget_undone"
   ],
   "note": "Proved: when standby is requested, which tank is vented, that venting of two faulted tanks is given up after 20 attempts, and that the handler gives the budget back. False in full: the budget stays at 1 if both tanks recover in the same cycle, and a ground change of the budget is undone by the handler (counterexamples)."
  },
  {
   "property": "C31",
   "status": "proved",
   "theorems": [
    "PAN.C31_safehold",
    "PAN.C31_manual"
   ],
   "note": ""
  },
  {
   "property": "C32",
   "status": "proved",
   "theorems": [
    "PAN.C32_stays",
    "PAN.C32_after_fault"
   ],
   "note": ""
  },
  {
   "property": "C33",
   "status": "proved",
   "theorems": [
    "PAN.C33_standby",
    "PAN.C33_no_effect"
   ],
   "note": ""
  },
  {
   "property": "C34",
   "status": "partial",
   "theorems": [
    "PAN.C34_desktop",
    "PAN.C34_teensy_partial",
    "PAN.C34_counterexample_teensy",
    "PAN.C34_leaves_in_time"
   ],
   "note": "Proved on the desktop target for every history of cycles and reboots; on the Teensy it is violated when a reset interrupts the very first EEPROM save (counterexample), and proved for every history whose first save is not interrupted before the deployment counter is written."
  },
  {
   "property": "C35",
   "status": "partial",
   "theorems": [
    "PAN.C35_attempt_partial",
    "PAN.C35_flag_clear_partial",
    "PAN.C35_stale_entry_kept",
    "PAN.C35_stale_entry_ends",
    "PAN.C35_counterexample_interrupted"
   ],
   "note": "Violated when an attempt is interrupted: the entry cycle is kept and a later attempt is given up at once (counterexample). Proved: exact duration of every attempt that starts with the entry flag clear, and that the flag is clear as long as no attempt is interrupted."
  },
  {
   "property": "C36",
   "status": "partial",
   "theorems": [
    "PAN.C36_reset_after_a_day_partial",
    "PAN.C36_counterexample_radio_silence"
   ],
   "note": "Violated under continuing radio silence, where every cycle restarts the timer (counterexample for any number of cycles). Proved when no further safehold-level fault occurs."
  },
  {
   "property": "C37",
   "status": "proved",
   "theorems": [
    "PAN.C37_firing_entry",
    "PAN.C37_timer_start",
    "PAN.C37_thrust_valve_opens",
    "PAN.C37_interrupt_opens",
    "PAN.C37_history"
   ],
   "note": "For every controller state, every history of cycles, interrupts and ground writes from construction."
  },
  {
   "property": "C38",
   "status": "proved",
   "theorems": [
    "PAN.C38_pressurise_budget",
    "PAN.C38_vent_budget",
    "PAN.C38_pressurise_outcome",
    "PAN.C38_fill_time",
    "PAN.C38_vent_time",
    "PAN.C38_pressurise_ends",
    "PAN.C38_vent_ends",
    "PAN.C38_counterexample_ground_idle"
   ],
   "note": "For every sensor history in which the state is otherwise only written to disabled. If ground writes idle while pressurising, the tank-1 valve stays open (C38_counterexample_ground_idle)."
  },
  {
   "property": "C39",
   "status": "partial",
   "theorems": [
    "PAN.C39_disabled",
    "PAN.C39_disabled_partial",
    "PAN.C39_counterexample_refused_firing"
   ],
   "note": "Proved when the controller starts its cycle disabled, and valves always; false for the schedule in the one cycle in which firing is refused (counterexample)."
  },
  {
   "property": "C40",
   "status": "proved",
   "theorems": [
    "PAN.C40_open_time",
    "PAN.C40_never_reopens",
    "PAN.C40_one_opens_per_tick",
    "PAN.C40_terminates",
    "PAN.C40_schedule_locked"
   ],
   "note": "For every schedule, any number of ticks and any interleaved calls."
  },
  {
   "property": "C41",
   "status": "partial",
   "theorems": [
    "PAN.C41_fires_as_commanded_partial",
    "PAN.C41_fires_on_time",
    "PAN.C41_counterexample_1000",
    "PAN.C41_driver_executes_partial"
   ],
   "note": "False for a schedule value of 1000 ms: validated by the controller, refused by the driver, the controller then fires an empty schedule (counterexample). Proved for values below 1000 over the whole path from pressurised to firing."
  },
  {
   "property": "C42",
   "status": "proved",
   "theorems": [
    "PAN.C42_leaves_state",
    "PAN.C42_leaves_any_state",
    "PAN.C42_moves",
    "PAN.C42_recovers",
    "PAN.C42_back_to_config",
    "PAN.C42_waits_iff_error"
   ],
   "note": "From every state, with any modem, at most limit+1 cycles after entry (waiting also lasts while the radio is power-cycled); every error or time-out leads through waiting to configuring."
  },
  {
   "property": "C43",
   "status": "partial",
   "theorems": [
    "PAN.C43_one_call",
    "PAN.C43_starts_at_first",
    "PAN.C43_in_order",
    "PAN.C43_completes",
    "PAN.C43_silent",
    "PAN.C43_other_tasks",
    "PAN.C43_counterexample_ground_ladder"
   ],
   "note": "Proved for all histories of the mission manager, fault handlers and radio manager in which ground does not write the radio fault handler's state (and does not command startup while that handler is at work); with such writes the configuration can start in the middle (counterexample)."
  },
  {
   "property": "C44",
   "status": "partial",
   "theorems": [
    "PAN.C44_packets",
    "PAN.C44_fresh_copy",
    "PAN.C44_covers_partial",
    "PAN.C44_counterexample_tail",
    "PAN.C44_when_complete",
    "PAN.C44_counterexample_overread",
    "PAN.C44_counterexample_leak"
   ],
   "note": "Which bytes each delivered message carries, when a fresh snapshot is taken, and which bytes are covered. Violated: trailing bytes are never sent, and memory past the snapshot buffer is read and can be sent (counterexamples)."
  },
  {
   "property": "C45",
   "status": "partial",
   "theorems": [
    "PAN.C45_checked_partial",
    "PAN.C45_complete_message",
    "PAN.C45_counterexample_length",
    "PAN.C45_counterexample_missing"
   ],
   "note": "Every accepted message has a matching length field and checksum over the bytes received. Violated for lengths above the buffer and for missing checksum bytes (counterexamples)."
  },
  {
   "property": "C46",
   "status": "partial",
   "theorems": [
    "PAN.C46_power_cycle",
    "PAN.C46_others_left_alone",
    "PAN.C46_counterexample_unread"
   ],
   "note": "Exact switching protocol for readable outputs, other outputs left alone. Violated when the published output state is stale (counterexample)."
  },
  {
   "property": "C47",
   "status": "partial",
   "theorems": [
    "PAN.C47_counterexample_order",
    "PAN.C47_counterexample_default",
    "PAN.C47_partial"
   ],
   "note": "Violated: photovoltaic voltages go out least significant byte first, so they arrive as commanded only when both bytes are equal (counterexamples; exact characterisation)."
  },
  {
   "property": "C48",
   "status": "partial",
   "theorems": [
    "PAN.DCDC.C48_reported",
    "PAN.DCDC.C48_follows",
    "PAN.DCDC.C48_disable",
    "PAN.DCDC.C48_reset",
    "PAN.DCDC.C48_reset_from_off",
    "PAN.DCDC.C48_counterexample_both",
    "PAN.DCDC.C48_boot_reads"
   ],
   "note": "Follow, disable and reset protocols proved for all later cycles. Violated when disable and reset are commanded in the same cycle (counterexample)."
  },
  {
   "property": "C49",
   "status": "partial",
   "theorems": [
    "PAN.Dock.C49_steps_partial",
    "PAN.Dock.C49_awake",
    "PAN.Dock.C49_completes_partial",
    "PAN.Dock.C49_counterexample_default",
    "PAN.Dock.C49_counterexample_withdrawn",
    "PAN.Dock.C49_counterexample_zero",
    "PAN.Dock.C49_counterexample_delay"
   ],
   "note": "For a command kept until the end: never more than the computed number of steps, exactly that number when the configuration changes, and the turn ends, in every interleaving of interrupts and task. Violated for the default angle (one step short), withdrawn commands, angle 0 and delay 0 (counterexamples). The motor's power is in C114."
  },
  {
   "property": "C50",
   "status": "partial",
   "theorems": [
    "PAN.C50_limit_partial",
    "PAN.C50_faithful",
    "PAN.C50_above_limit",
    "PAN.C50_counterexample_above",
    "PAN.C50_counterexample_negative_limit",
    "PAN.C50_off"
   ],
   "note": "Lower bound always holds; upper bound only if the component along the rod is within the limit. Above the limit, and with a negative limit, it is false of the code (counterexamples)."
  },
  {
   "property": "C51",
   "status": "partial",
   "theorems": [
    "PAN.C51_messages",
    "PAN.C51_delivered_partial",
    "PAN.C51_counterexample_both"
   ],
   "note": "Delivered exactly and once when only one kind of order is given in a cycle; false when both kinds are (counterexample for all such cycles)."
  },
  {
   "property": "C54",
   "status": "proved",
   "theorems": [
    "PAN.C54_chain",
    "PAN.C54_reset",
    "PAN.C54_reset_once"
   ],
   "note": "Every state and every library of filters. A reset command is also used up by its cycle (C54_reset_once)."
  },
  {
   "property": "C55",
   "status": "proved",
   "theorems": [
    "PAN.C55_nonneg",
    "PAN.C55_produces",
    "PAN.C55_time_monotone",
    "PAN.C55_time_zero",
    "PAN.C55_time",
    "PAN.C55_counterexample_wasteful",
    "PAN.C55_counterexample_too_much"
   ],
   "note": "Every impulse, every rounding with a relative error of at most 1e-3 (1e-6 for the times), which includes single precision. The open times are proved to give the impulse to within one millisecond of thrust; up to 20000 Ns."
  },
  {
   "property": "C56",
   "status": "proved",
   "theorems": [
    "PAN.C56_shutdown",
    "PAN.C56_converters_partial",
    "PAN.C56_counterexample_reset",
    "PAN.C56_stays",
    "PAN.C56_completes"
   ],
   "note": "All states and inputs of the composed tasks, with any library of orbit functions and any rounding; also that the satellite stays shut down over any number of cycles until a state is commanded. Not part of the property, and only partial: that the converters are off too (C56_converters_partial fails when a reset of the converters was commanded: C56_counterexample_reset). That the box obeys is C75 and C76, which show that it does not always."
  },
  {
   "property": "C57",
   "status": "partial",
   "theorems": [
    "PAN.C57_decode_any_bits_partial",
    "PAN.C57_counterexample_decode_above_max",
    "PAN.C57_decode_value_partial"
   ],
   "note": "Refuted in general (bit patterns above the last step decode above the maximum); proved when the number of values fills the bit width."
  },
  {
   "property": "C58",
   "status": "partial",
   "theorems": [
    "PAN.C58_counterexample_low_battery",
    "PAN.C58_radio_back_on_partial",
    "PAN.C58_counterexample_skipped"
   ],
   "note": "The handler itself switches the radio back on (proved). Violated when an earlier fault handler answers safehold in the next cycle (counterexamples)."
  },
  {
   "property": "C59",
   "status": "partial",
   "theorems": [
    "PAN.C59_no_reset_before_a_day_partial",
    "PAN.C59_counterexample_ground_safehold"
   ],
   "note": "Violated when ground commands safehold (stale timer, counterexample). Proved for safehold entered because of a fault."
  },
  {
   "property": "C60",
   "status": "proved",
   "theorems": [
    "PAN.C60_edges",
    "PAN.C60_taken"
   ],
   "note": "Edges with their conditions, and that they are taken when the condition holds in a cycle without a fault response."
  },
  {
   "property": "C61",
   "status": "partial",
   "theorems": [
    "PAN.C61_exactly",
    "PAN.C61_stopped",
    "PAN.C61_after_reboot_partial",
    "PAN.C61_kept_partial",
    "PAN.C61_stops_again_partial",
    "PAN.C61_counterexample_period",
    "PAN.C61_counterexample_docked"
   ],
   "note": "Exactly when the computer stops, that it stays stopped until a reboot, and what a reboot keeps on both builds. Violated after a reboot in docked and for a kill switch commanded less than 100 cycles before a reboot (counterexamples)."
  },
  {
   "property": "C62",
   "status": "partial",
   "theorems": [
    "PAN.C62_radio_on_after_startup_partial",
    "PAN.C62_counterexample_docked"
   ],
   "note": "Violated after a reboot in docking or docked: the radio stays off for any number of cycles (counterexample). Proved for boots into startup."
  },
  {
   "property": "C63",
   "status": "proved",
   "theorems": [
    "PAN.C63_configured",
    "PAN.C63_otherwise",
    "PAN.C63_undefined_keeps_propulsion"
   ],
   "note": "Every transition the mission manager makes by itself; ground writes of the mission state do not configure anything. An undefined mission state leads to safehold without stopping propulsion (C63_undefined_keeps_propulsion)."
  },
  {
   "property": "C64",
   "status": "partial",
   "theorems": [
    "PAN.C64_back_on_partial",
    "PAN.C64_stays_off",
    "PAN.C64_counterexample_fault"
   ],
   "note": "Proved if no safehold-level fault is reported in the one cycle after the power cycle; otherwise the radio stays off (counterexample, for every such state)."
  },
  {
   "property": "C65",
   "status": "partial",
   "theorems": [
    "PAN.C65_housekeeping_partial",
    "PAN.C65_counterexample_boot",
    "PAN.C65_failed_read"
   ],
   "note": "All fields except the boot counter, whose published value is wrong (counterexample)."
  },
  {
   "property": "C66",
   "status": "partial",
   "theorems": [
    "PAN.C66_heater_partial",
    "PAN.C66_counterexample_first"
   ],
   "note": "Proved after the first cycle. Violated in the first cycle (counterexample)."
  },
  {
   "property": "C68",
   "status": "proved",
   "theorems": [
    "PAN.C68_one_shot"
   ],
   "note": "Each command's frame is sent exactly once and the field cleared, in every combination."
  },
  {
   "property": "C70",
   "status": "partial",
   "theorems": [
    "PAN.C70_completes_partial",
    "PAN.C70_counterexample_period"
   ],
   "note": "Proved for every non-zero period. Violated for period 0 (counterexample)."
  },
  {
   "property": "C69",
   "status": "proved",
   "theorems": [
    "PAN.C69_receiver_held_off",
    "PAN.C69_off_from_boot"
   ],
   "note": "Every state and answer."
  },
  {
   "property": "C67",
   "status": "partial",
   "theorems": [
    "PAN.C67_low_battery",
    "PAN.C67_counterexample_stale",
    "PAN.C67_default_threshold"
   ],
   "note": "Proved in terms of the published voltage, one cycle later. Violated while the supply's answers fail: the published voltage is stale (counterexample)."
  },
  {
   "property": "C71",
   "status": "proved",
   "theorems": [
    "PAN.C71_accepted",
    "PAN.C71_error_code"
   ],
   "note": "Every command in every history in which other tasks only switch the radio on and off. The numbers of the session status are inputs (sscanf is not modelled)."
  },
  {
   "property": "C72",
   "status": "proved",
   "theorems": [
    "PAN.C72_contact"
   ],
   "note": "Every history shorter than 2^32 cycles, whatever other tasks do to the radio. A negative status counts as a success in the code, and in the statement."
  },
  {
   "property": "C52",
   "status": "proved",
   "theorems": [
    "PAN.C52_mode",
    "PAN.C52_startup",
    "PAN.C52_wheels_disabled",
    "PAN.C52_torque_only_pointing",
    "PAN.C52_zero_torque",
    "PAN.C52_detumble",
    "PAN.C52_pointing",
    "PAN.C52_manual",
    "PAN.C52_zero_moment_is_off",
    "PAN.C52_zero_torque_is_off",
    "PAN.C52_rods_end_to_end",
    "PAN.C52_wheels_end_to_end"
   ],
   "note": "All attitude states, exact messages, decoded values within the resolution of the bus format. The control laws themselves (gnc library) are inputs."
  },
  {
   "property": "C73",
   "status": "proved",
   "theorems": [
    "PAN.C73_rods_applied",
    "PAN.C73_wheels_applied",
    "PAN.C73_whole_commands",
    "PAN.C73_at_most_once"
   ],
   "note": "Interrupts between any two steps of the main loop; a step is one atomic register access as listed in Model/ADCSBox.lean."
  },
  {
   "property": "C74",
   "status": "partial",
   "theorems": [
    "PAN.C74_no_undefined_partial",
    "PAN.C74_counterexample_mode_race"
   ],
   "note": "Holds if speed control of the wheels is never selected; false otherwise (counterexample)."
  },
  {
   "property": "C75",
   "status": "partial",
   "theorems": [
    "PAN.C75_disabled_wheels_keep_turning",
    "PAN.C75_counterexample_detumble",
    "PAN.C75_stop_partial",
    "PAN.C75_never_stopped"
   ],
   "note": "False of the code: the wheels are never stopped (refuted for all states and histories). C75_stop_partial: the actuation that is never reached would stop them."
  },
  {
   "property": "C76",
   "status": "partial",
   "theorems": [
    "PAN.C76_passive_keeps_driving",
    "PAN.C76_counterexample_safehold",
    "PAN.C76_no_new_actuation_partial",
    "PAN.C76_never_switched_off"
   ],
   "note": "False of the code: nothing is switched off (refuted for all histories). C76_no_new_actuation_partial: no new actuation starts."
  },
  {
   "property": "C77",
   "status": "proved",
   "theorems": [
    "PAN.C77_off_until_reset",
    "PAN.C77_no_torque",
    "PAN.C77_in_service",
    "PAN.C77_reported"
   ],
   "note": "All histories and hardware behaviours; 'in service exactly as ordered' for rods, wheels and heater (other devices may drop out by themselves)."
  },
  {
   "property": "C78",
   "status": "partial",
   "theorems": [
    "PAN.C78_valid_partial",
    "PAN.C78_nothing_left",
    "PAN.C78_point_manual_keeps_torque"
   ],
   "note": "Holds in the standby and docking pointing states; false in the manual pointing state (all histories)."
  },
  {
   "property": "C79",
   "status": "proved",
   "theorems": [
    "PAN.C79_tracker_mode",
    "PAN.C79_voltages"
   ],
   "note": "All reported and commanded values, cycles in which the supply answers."
  },
  {
   "property": "C80",
   "status": "partial",
   "theorems": [
    "PAN.C80_heater_on",
    "PAN.C80_reading",
    "PAN.C80_out_of_service",
    "PAN.C80_stuck"
   ],
   "note": "Driven only on a reading below the target, for all histories; the converse protection (no heating without readings) is false of the code (C80_stuck)."
  },
  {
   "property": "C81",
   "status": "partial",
   "theorems": [
    "PAN.C81_torque",
    "PAN.C81_no_potentiometer",
    "PAN.C81_speed_never_reverses"
   ],
   "note": "Torque control proved with rounding bounds while the potentiometer works; the direction in speed control is false of the code."
  },
  {
   "property": "C53",
   "status": "partial",
   "theorems": [
    "PAN.C53_safe",
    "PAN.C53_published",
    "PAN.C53_kept",
    "PAN.C53_only_with_fix",
    "PAN.C53_source",
    "PAN.C53_end_to_end_spp",
    "PAN.C53_end_to_end_rtk",
    "PAN.C53_counterexample_short"
   ],
   "note": "All byte streams and all cycles, against the bytes the driver takes for each message; end to end for messages of full size. Short messages are filled up with old bytes (C53_counterexample_short)."
  },
  {
   "property": "C82",
   "status": "proved",
   "theorems": [
    "PAN.C82_safe",
    "PAN.C82_chunks",
    "PAN.C82_delivered",
    "PAN.C82_recovers",
    "PAN.C82_sound",
    "PAN.C82_burst",
    "PAN.C82_odd",
    "PAN.C82_checksum",
    "PAN.C82_sent"
   ],
   "note": "All byte streams and cuttings. Error detection for bursts of up to 16 bits and odd numbers of bits."
  },
  {
   "property": "C83",
   "status": "partial",
   "theorems": [
    "PAN.C83_age_partial",
    "PAN.C83_first",
    "PAN.C83_cases",
    "PAN.C83_young",
    "PAN.C83_counterexample_wrap"
   ],
   "note": "All interleavings; exact up to the 32-bit wrap (71 minutes without a pause, five days of silence). Beyond that false (C83_counterexample_wrap); the first packet within 10 ms of start-up is dated from start-up (C83_first)."
  },
  {
   "property": "C84",
   "status": "partial",
   "theorems": [
    "PAN.C84_counterexample_velocity",
    "PAN.C84_counterexample_baseline"
   ],
   "note": "False of the code: a thousand times too large, proved for every fix of full-size messages."
  },
  {
   "property": "C85",
   "status": "proved",
   "theorems": [
    "PAN.C85_valid_iff",
    "PAN.C85_time"
   ],
   "note": "All histories; ages up to 100 ms (which C53_source ensures) and times below 2^64 ns."
  },
  {
   "property": "C86",
   "status": "proved",
   "theorems": [
    "PAN.C86_used",
    "PAN.C86_too_late",
    "PAN.C86_rejected",
    "PAN.C86_replaced"
   ],
   "note": "All queues and all waiting times, for cycles with valid time and orbit and without a relative estimate; times that are set and fit in 64 bits of nanoseconds."
  },
  {
   "property": "C87",
   "status": "partial",
   "theorems": [
    "PAN.C87_fresh",
    "PAN.C87_counterexample_stale_baseline",
    "PAN.C87_kept",
    "PAN.C87_kept_anew",
    "PAN.C87_counterexample_dropped_early"
   ],
   "note": "The freshness half is proved for all histories, and how long an estimate is kept, exactly (C87_kept), also for the one that follows it (C87_kept_anew). The other half is false of the code, for every gap (C87_counterexample_stale_baseline), and an estimate started after a reset can be dropped early (C87_counterexample_dropped_early)."
  },
  {
   "property": "C88",
   "status": "partial",
   "theorems": [
    "PAN.C88_time",
    "PAN.C88_orbit",
    "PAN.C88_attitude",
    "PAN.C88_counterexample_relative"
   ],
   "note": "Proved for time, orbit and attitude, for every library. False for the relative orbit (C88_counterexample_relative)."
  },
  {
   "property": "C89",
   "status": "proved",
   "theorems": [
    "PAN.C89_field",
    "PAN.C89_fault"
   ],
   "note": "All histories, every library; cycle numbers positive and increasing, no ground override of the fault."
  },
  {
   "property": "C90",
   "status": "partial",
   "theorems": [
    "PAN.C90_only_when",
    "PAN.C90_countdown",
    "PAN.C90_counterexample_direction",
    "PAN.C90_counterexample_node",
    "PAN.C90_counterexample_half",
    "PAN.C90_nodes",
    "PAN.C90_fresh",
    "PAN.C90_counterexample_gain"
   ],
   "note": "Gating, countdown and freshness are proved for every library and rounding. \"Ahead\" is the controller's own notion, with the angle taken unsigned, which is wrong on half the orbit (C90_counterexample_direction, C90_counterexample_node)."
  },
  {
   "property": "C91",
   "status": "proved",
   "theorems": [
    "PAN.C91_not_early",
    "PAN.C91_spacing",
    "PAN.C91_lates",
    "PAN.C91_on_time",
    "PAN.C91_published",
    "PAN.C91_duration",
    "PAN.C91_counterexample_overflow",
    "PAN.C91_counterexample_average",
    "PAN.C91_counterexample_short"
   ],
   "note": "For every sequence of durations. \"On time\" needs that each task's work and the overhead fit the slot (`Spec.Prompt`); without it nothing is promised but the order and not being early."
  },
  {
   "property": "C92",
   "status": "proved",
   "theorems": [
    "PAN.C92_arrive"
   ],
   "note": "The two magnetometer modes are sent too but set back by the main loop in every pass; they are not part of the property."
  },
  {
   "property": "C93",
   "status": "partial",
   "theorems": [
    "PAN.C93_counterexample_ramp_filter",
    "PAN.C93_counterexample_frozen_when_disabled",
    "PAN.C93_counterexample_frozen_when_passive",
    "PAN.C93_counterexample_startup",
    "PAN.C93_speeds_partial",
    "PAN.C93_counterexample_torque",
    "PAN.C93_counterexample_lost_converter",
    "PAN.C93_memory"
   ],
   "note": "The speeds are proved true in a pass over the wheels with working converters; the four counterexamples show where the property fails."
  },
  {
   "property": "C94",
   "status": "proved",
   "theorems": [
    "PAN.C94_asked",
    "PAN.C94_gyroscope_turned",
    "PAN.C94_counterexample_mirrored",
    "PAN.C94_answered",
    "PAN.C94_mag1",
    "PAN.C94_mag2",
    "PAN.C94_gyro",
    "PAN.C94_temperature"
   ],
   "note": "The accuracy is stated for the default filter setting; with another one the reading is by design a weighted mean of the past."
  },
  {
   "property": "C95",
   "status": "proved",
   "theorems": [
    "PAN.C95_answered",
    "PAN.C95_voltage",
    "PAN.C95_counterexample_negative"
   ],
   "note": "The accuracy is stated for the default filter setting and 0 to 3.3 V."
  },
  {
   "property": "C96",
   "status": "partial",
   "theorems": [
    "PAN.C96_device_faults",
    "PAN.C96_box_fault",
    "PAN.C96_box_fault_delay",
    "PAN.C96_sun_vector",
    "PAN.C96_device_table",
    "PAN.C96_counterexample_flags",
    "PAN.C96_counterexample_silent",
    "PAN.C96_flags_partial"
   ],
   "note": "Table, faults and sun vector are proved; the flags of torque and field and the visibility of a silent box are refuted."
  },
  {
   "property": "C97",
   "status": "partial",
   "theorems": [
    "PAN.C97_accuracy",
    "PAN.C97_infinite",
    "PAN.C97_decode",
    "PAN.C97_float",
    "PAN.C97_double",
    "PAN.C97_counterexample_nan",
    "PAN.C97_counterexample_single",
    "PAN.C97_counterexample_upper_end",
    "PAN.C97_counterexample_echo",
    "PAN.C97_counterexample_saturated",
    "PAN.C97_counterexample_reversed"
   ],
   "note": "Accuracy and decoding are proved for every finite or infinite value and every suitable range (up to 20 bits for float, 48 for double); NaN, single-point ranges, the exact echo and the upper end of float fields of 25 bits or more are refuted."
  },
  {
   "property": "C98",
   "status": "partial",
   "theorems": [
    "PAN.C98_rounded_range_partial",
    "PAN.C98_counterexample_overflow",
    "PAN.C98_accuracy_partial",
    "PAN.C98_counterexample_axis",
    "PAN.C98_counterexample_mirrored",
    "PAN.C98_counterexample_precision",
    "PAN.C98_rounded_partial",
    "PAN.C98_float",
    "PAN.C98_double",
    "PAN.C98_counterexample_underflow",
    "PAN.C98_counterexample_pole"
   ],
   "note": "Proved without rounding with 2.1 times the documented precision (C98_accuracy_partial), and with rounding in any arithmetic of a given accuracy, `float` and `double` among them, with a term for the rounding added (C98_rounded_partial), for ranges from zero or above and symmetric ones, except for a first component +0. The counterexamples refute the rest: positive zero, third axis, the documented precision itself, underflow, and with `float` the precision near the third axis. Missing with rounding: magnitudes and angles sent with 26 bits or more in `float` (the 50-bit magnitudes of the actuator commands; C97_counterexample_saturated)."
  },
  {
   "property": "C99",
   "status": "partial",
   "theorems": [
    "PAN.C99_accuracy",
    "PAN.C99_counterexample_zero",
    "PAN.C99_counterexample_bits",
    "PAN.C99_rounded_partial",
    "PAN.C99_float_partial",
    "PAN.C99_counterexample_underflow",
    "PAN.C99_float_range_partial",
    "PAN.C99_counterexample_overflow"
   ],
   "note": "Proved for every quaternion other than zero without rounding, and with the rounding of every operation and overflow for every quaternion of float between 2^-61 and 2^63 long (C99_float_range_partial). Zero, NaN, underflow, overflow and arbitrary bits are refuted."
  },
  {
   "property": "C100",
   "status": "proved",
   "theorems": [
    "PAN.C100_reset",
    "PAN.C100_service",
    "PAN.C100_disabled",
    "PAN.C100_reading",
    "PAN.C100_components",
    "PAN.C100_answers"
   ],
   "note": ""
  },
  {
   "property": "C101",
   "status": "partial",
   "theorems": [
    "PAN.C101_service",
    "PAN.C101_reset",
    "PAN.C101_calibrated",
    "PAN.C101_no_overflow",
    "PAN.C101_ends_partial",
    "PAN.C101_counterexample_waits",
    "PAN.C101_counterexample_frozen"
   ],
   "note": "The zero error, the range and the rule of three failures are proved; that a calibration ends and leaves the magnetometer measuring is refuted, and proved if the magnetometer becomes ready."
  },
  {
   "property": "C102",
   "status": "partial",
   "theorems": [
    "PAN.C102_value",
    "PAN.C102_service",
    "PAN.C102_counterexample_waits"
   ],
   "note": "The value and the rule of three failures are proved while the alert line rises; that reading ends is refuted."
  },
  {
   "property": "C103",
   "status": "partial",
   "theorems": [
    "PAN.C103_reported",
    "PAN.C103_best_fit",
    "PAN.C103_direction_partial",
    "PAN.C103_one_face",
    "PAN.C103_sensors",
    "PAN.C103_counterexample_plane",
    "PAN.C103_counterexample_tilt"
   ],
   "note": "Proved without rounding, for the sensor directions in the code and lit sensors that determine a direction; that these directions are those of sensors tilted by 20 degrees is refuted."
  },
  {
   "property": "C104",
   "status": "partial",
   "theorems": [
    "PAN.C104_integer",
    "PAN.C104_real",
    "PAN.C104_time",
    "PAN.C104_vector_partial",
    "PAN.C104_quaternion",
    "PAN.C104_delivered_partial",
    "PAN.C104_flight_integers",
    "PAN.C104_counterexample_mirrored",
    "PAN.C104_counterexample_axis",
    "PAN.C104_counterexample_all_axes",
    "PAN.C104_counterexample_battery",
    "PAN.C104_counterexample_converter",
    "PAN.C104_counterexample_docking_timeout",
    "PAN.C104_counterexample_wraps",
    "PAN.C104_counterexample_temperature",
    "PAN.C104_counterexample_week",
    "PAN.C104_checked"
   ],
   "note": "Proved for packets the tool makes of integers within their type, booleans, real numbers, GPS times in range, quaternions and vectors whose first component is not zero (the arithmetic on vectors and quaternions without rounding); and that every value of the range is taken for the integer fields whose format is derived from their range. Refuted for the five fields with a narrower format, numbers beyond the type, negative reals, GPS times out of range, and vectors whose first component is zero."
  },
  {
   "property": "C105",
   "status": "partial",
   "theorems": [
    "PAN.C105_print_integer",
    "PAN.C105_print_real",
    "PAN.C105_read_integer",
    "PAN.C105_refused_integer",
    "PAN.C105_integer_round_trip_partial",
    "PAN.C105_bool",
    "PAN.C105_read_real",
    "PAN.C105_refused_real",
    "PAN.C105_real_round_trip",
    "PAN.C105_vector_round_trip_partial",
    "PAN.C105_time_partial",
    "PAN.C105_counterexample_unsigned",
    "PAN.C105_counterexample_too_large",
    "PAN.C105_counterexample_wraps",
    "PAN.C105_counterexample_time",
    "PAN.C105_counterexample_refused_time",
    "PAN.C105_counterexample_components",
    "PAN.C105_counterexample_words"
   ],
   "note": "Printing is proved for all values that fit the buffer (C106). Reading back is proved, with powers of ten, except for unsigned numbers beyond the largest int (undefined), the set flag of GPS times (lost) and vector texts with too many components (out of bounds). Which texts are refused is proved. Hexadecimal numbers, infinities and NaN in texts are not modelled."
  },
  {
   "property": "C106",
   "status": "partial",
   "theorems": [
    "PAN.C106_real_partial",
    "PAN.C106_nonfinite",
    "PAN.C106_counterexample_real",
    "PAN.C106_flight_reals",
    "PAN.C106_vector_partial",
    "PAN.C106_counterexample_position",
    "PAN.C106_time_partial",
    "PAN.C106_time_decoded",
    "PAN.C106_counterexample_time"
   ],
   "note": "Proved for booleans, integers, real numbers from -99999 to 999999 (all real fields of the flight software), vectors with components within 9999 (velocities, relative positions, quaternions), and GPS times decoded from bits or within the documented ranges. Refuted for positions in orbit and larger numbers."
  },
  {
   "property": "C107",
   "status": "partial",
   "theorems": [
    "PAN.C107_commands_partial",
    "PAN.C107_write_number",
    "PAN.C107_refused_flag",
    "PAN.C107_found_partial",
    "PAN.C107_counterexample_sixth",
    "PAN.C107_counterexample_brace",
    "PAN.C107_counterexample_malformed",
    "PAN.C107_counterexample_value",
    "PAN.C107_counterexample_passed_over",
    "PAN.C107_counterexample_never_ends"
   ],
   "note": "Proved for lines of up to five requests that the library accepts, none an uplink, with texts the fields take without undefined behaviour (C105, C106). The exceptions are the counterexamples. The JSON library is not modelled."
  },
  {
   "property": "C108",
   "status": "partial",
   "theorems": [
    "PAN.C108_uplink_partial",
    "PAN.C108_fits",
    "PAN.C108_as_by_radio",
    "PAN.C108_counterexample_short",
    "PAN.C108_counterexample_length"
   ],
   "note": "Proved for packets of 3 to 74 bytes (the ground tool makes at most 70). Shorter packets and wrong lengths are undefined."
  },
  {
   "property": "C109",
   "status": "proved",
   "theorems": [
    "PAN.C109_waits",
    "PAN.C109_once",
    "PAN.C109_auto"
   ],
   "note": "The commands of a batch are arbitrary changes of state."
  },
  {
   "property": "C110",
   "status": "partial",
   "theorems": [
    "PAN.C110_recent_errors",
    "PAN.C110_pop",
    "PAN.C110_setup",
    "PAN.C110_after_setup",
    "PAN.C110_functional_partial",
    "PAN.C110_counterexample_never_counted",
    "PAN.C110_counterexample_in_a_row",
    "PAN.C110_timeout",
    "PAN.C110_counterexample_timeout",
    "PAN.C110_attitude_box",
    "PAN.C110_power_supply_partial",
    "PAN.C110_counterexample_silence",
    "PAN.C110_counterexample_stale_answer",
    "PAN.C110_attitude_box_setup",
    "PAN.C110_counterexample_receive",
    "PAN.C110_receive_partial"
   ],
   "note": "Setup, the error record and the attitude box's ping are proved; reports of working devices are proved to count failed setup pings only, which refutes the documented meaning; pings of the power supply are proved if the whole answer arrives and refuted otherwise."
  },
  {
   "property": "C111",
   "status": "partial",
   "theorems": [
    "PAN.C111_other_groups",
    "PAN.C111_same_as_whole",
    "PAN.C111_counterexample_port",
    "PAN.C111_config_sent",
    "PAN.C111_config2_sent",
    "PAN.C111_counterexample_restore",
    "PAN.C111_heater_partial",
    "PAN.C111_counterexample_heater",
    "PAN.C111_counterexample_config",
    "PAN.C111_counterexample_config2",
    "PAN.C111_config_refused_partial"
   ],
   "note": "Housekeeping groups and written configurations are proved; configurations read back are refuted (they destroy memory), and so is restoring the defaults."
  },
  {
   "property": "C112",
   "status": "partial",
   "theorems": [
    "PAN.C112_pressure",
    "PAN.C112_overpressure",
    "PAN.C112_ready",
    "PAN.C112_counterexample_coarse",
    "PAN.C112_too_hot",
    "PAN.C112_temp_falls",
    "PAN.C112_counterexample_range"
   ],
   "note": "Pressure, its thresholds and the temperature threshold are proved (the temperature within a hundredth of a degree of the exact formula); that readings stay in the calibrated range and that a dead coarse sensor is noticed are refuted."
  },
  {
   "property": "C113",
   "status": "partial",
   "theorems": [
    "PAN.C113_dops",
    "PAN.C113_uart",
    "PAN.C113_iar",
    "PAN.C113_healthy",
    "PAN.C113_counterexample_swiftnap",
    "PAN.C113_counterexample_base",
    "PAN.C113_log_partial",
    "PAN.C113_counterexample_log_text",
    "PAN.C113_counterexample_dump",
    "PAN.C113_commands",
    "PAN.C113_counterexample_settings",
    "PAN.C113_msg_len"
   ],
   "note": "Precision, channel, ambiguity and heartbeat readings, overall health, reset and save commands are proved; the log is proved to hold the levels of the latest 128 messages only; the SwiftNAP answer, the base position, the clearing dump, settings and user data are refuted."
  },
  {
   "property": "C114",
   "status": "partial",
   "theorems": [
    "PAN.C114_powered_partial",
    "PAN.C114_counterexample_unpowered",
    "PAN.C114_safehold_still",
    "PAN.C114_docked",
    "PAN.C114_counterexample_configuration"
   ],
   "note": "Proved: exact movement with power on throughout, no movement in safehold, docked exactly on the switch. Refuted: reports without power, docking in the wrong configuration."
  },
  {
   "property": "C115",
   "status": "partial",
   "theorems": [
    "PAN.C115_flown",
    "PAN.C115_begins",
    "PAN.C115_enough_time",
    "PAN.C115_counterexample_dropped",
    "PAN.C115_counterexample_near"
   ],
   "note": "Proved: flown exactly on time if the pressure is reached while filling (C115_flown), and flown or reported if commanded in time (C115_enough_time). Refuted for manoeuvres commanded later, which is what the orbit controller does near the target."
  },
  {
   "property": "C116",
   "status": "proved",
   "theorems": [
    "PAN.C116_starts_iff",
    "PAN.C116_lookup",
    "PAN.C116_flight_starts",
    "PAN.C116_flight_eeprom",
    "PAN.C116_flight_writable"
   ],
   "note": "The order and arguments of the calls are transcribed from the constructors (Model/StartupTable). The DESKTOP and unit-test variants are not modelled where they differ."
  },
  {
   "property": "C117",
   "status": "partial",
   "theorems": [
    "PAN.C117_flight_accepted",
    "PAN.C117_no_overrun",
    "PAN.C117_always_produces",
    "PAN.C117_default_frame_partial",
    "PAN.C117_counterexample_cycle_number",
    "PAN.C117_counterexample_ground",
    "PAN.C117_counterexample_toggle",
    "PAN.C117_counterexample_shift"
   ],
   "note": "Proved: the table is accepted, the buffer is never overrun, a frame is produced in every cycle, and all but one of the payload bits of the default frame are in place. Refuted: bit 2 of the cycle number, the header of the second packet, parsing on the ground, toggle commands beyond 43 and nearly all shift commands."
  },
  {
   "property": "C118",
   "status": "proved",
   "theorems": [
    "PAN.C118_mode_read",
    "PAN.C118_vector_read",
    "PAN.C118_request",
    "PAN.C118_modes",
    "PAN.C118_complete",
    "PAN.C118_read_together",
    "PAN.C118_flight",
    "PAN.C118_counterexample_stuck"
   ],
   "note": "Proved for all messages the flight computer sends; refuted for other values written to the register (C118_counterexample_stuck). Registers and vector are read and written whole in the model."
  },
  {
   "property": "C119",
   "status": "proved",
   "theorems": [
    "PAN.C119_off",
    "PAN.C119_exact"
   ],
   "note": ""
  },
  {
   "property": "C120",
   "status": "partial",
   "theorems": [
    "PAN.C120_written_partial",
    "PAN.C120_read_back_partial",
    "PAN.C120_stream",
    "PAN.C120_counterexample_position",
    "PAN.C120_counterexample_overwritten"
   ],
   "note": "Proved for numbers, streams and bit arrays of whole bytes; refuted for other bit arrays (C120_counterexample_position, C120_counterexample_overwritten)."
  },
  {
   "property": "C121",
   "status": "partial",
   "theorems": [
    "PAN.C121_generated",
    "PAN.C121_field",
    "PAN.C121_range",
    "PAN.C121_flight_ranges",
    "PAN.C121_flow",
    "PAN.C121_only",
    "PAN.C121_counterexample_not_a_field",
    "PAN.C121_counterexample_two_flows",
    "PAN.C121_flight",
    "PAN.C121_priority",
    "PAN.C121_flow_readback",
    "PAN.C121_counterexample_field_readback",
    "PAN.C121_counterexample_readback"
   ],
   "note": "Fields, types, sizes, limits, EEPROM periods, flows and priorities are proved for every wiring and table; the flow of a field in several, events in flows and reading back are refuted."
  },
  {
   "property": "C122",
   "status": "partial",
   "theorems": [
    "PAN.C122_recorded",
    "PAN.C122_part",
    "PAN.C122_counterexample_sixth",
    "PAN.C122_counterexample_header",
    "PAN.C122_contact"
   ],
   "note": "Proved for whole answers, and for the first five numbers (the flight software uses three of them) for every part of an answer; refuted for the sixth and for bytes that are no answer."
  },
  {
   "property": "C123",
   "status": "partial",
   "theorems": [
    "PAN.C123_measures_partial",
    "PAN.C123_counterexample_four",
    "PAN.C123_signals",
    "PAN.C123_counterexample_no_reset",
    "PAN.C123_box",
    "PAN.C123_inputs",
    "PAN.C123_apart",
    "PAN.C123_settings",
    "PAN.C123_field",
    "PAN.C123_temperature",
    "PAN.C123_rate",
    "PAN.C123_counterexample_rate",
    "PAN.C123_field2",
    "PAN.C123_counterexample_field2"
   ],
   "note": "gain FOUR, the scale of the gyroscope and the scale of the second magnetometer are refuted; the chips' behaviour is taken from their data sheets."
  },
  {
   "property": "C124",
   "status": "partial",
   "theorems": [
    "PAN.C124_field_partial",
    "PAN.C124_echo_partial",
    "PAN.C124_counterexample_pressure",
    "PAN.C124_vector_partial",
    "PAN.C124_counterexample_vanishes"
   ],
   "note": "whole numbers are shown exactly; vectors to twice the accuracy of the field if the first component held is not zero (C124_vector_partial; refuted otherwise: C124_counterexample_vanishes); other numbers to twice the accuracy, and the exact echo of them is refuted (C124_counterexample_pressure)."
  },
  {
   "property": "C125",
   "status": "proved",
   "theorems": [
    "PAN.C125_report",
    "PAN.C125_command",
    "PAN.C125_read",
    "PAN.C125_uplink",
    "PAN.C125_counterexample_shared"
   ],
   "note": "the buffer itself is shared: encoding one field replaces the bits of another (proved too); every use reads the bits directly after writing them."
  },
  {
   "property": "C126",
   "status": "proved",
   "theorems": [
    "PAN.C126_valves",
    "PAN.C126_counts",
    "PAN.C126_pings",
    "PAN.C126_pings_sharp"
   ],
   "note": "the power supply's time-out is not in the repository; the bound is shown to be reached (C126_pings_sharp)."
  },
  {
   "property": "C127",
   "status": "partial",
   "theorems": [
    "PAN.C127_history",
    "PAN.C127_command",
    "PAN.C127_counterexample_length"
   ],
   "note": "proved for modems whose messages have the announced length (C127_history, C127_command); otherwise refuted (C127_counterexample_length). Vectors and quaternions in command files as in C104."
  },
  {
   "property": "C128",
   "status": "partial",
   "theorems": [
    "PAN.C128_counterexample_nothing_stops",
    "PAN.C128_counterexample_box_active",
    "PAN.C128_counterexample_fires",
    "PAN.C128_with_both_commands_partial",
    "PAN.C128_radio_partial"
   ],
   "note": "Refuted for the safehold command alone (C128_counterexample_*); proved when propulsion disabled and attitude startup are commanded in the same packet, and when the radio gives up."
  },
  {
   "property": "C129",
   "status": "partial",
   "theorems": [
    "PAN.C129_low_battery_partial",
    "PAN.C129_lost_wheel_partial",
    "PAN.C129_low_answers_partial",
    "PAN.C129_reset_delivered",
    "PAN.C129_counterexample_docking"
   ],
   "note": "Proved for every history outside docking, startup, safehold and manual (and initialization hold for the wheels) as long as the ground leaves the faults, mission state and fault handling alone; refuted while docking."
  },
  {
   "property": "C130",
   "status": "partial",
   "theorems": [
    "PAN.C130_handled",
    "PAN.C130_vented",
    "PAN.C130_opened",
    "PAN.C130_counterexample_disabled"
   ],
   "note": "Proved for every history in which ground leaves the three faults alone, from every state that notices faults; refuted while propulsion is disabled. In the last two cycles of a filling attempt the attempt is abandoned first."
  },
  {
   "property": "C131",
   "status": "proved",
   "theorems": [
    "PAN.C131_refines",
    "PAN.C131_valves",
    "PAN.C131_vented"
   ],
   "note": ""
  },
  {
   "property": "C132",
   "status": "partial",
   "theorems": [
    "PAN.C132_accepted",
    "PAN.C132_flown",
    "PAN.C132_enough_time",
    "PAN.C132_as_planned_partial"
   ],
   "note": "Durations of exactly 1000 ms, which the propulsion controller accepts and the driver refuses, are excluded from the part about the valves (C41_counterexample_1000)."
  },
  {
   "property": "C133",
   "status": "proved",
   "theorems": [
    "PAN.C133_no_plan",
    "PAN.C133_planned",
    "PAN.C133_counterexample_standby"
   ],
   "note": "The conditions are required when the manoeuvre is planned, as in the statement; that they need not hold any more when it is flown is shown by C133_counterexample_standby."
  },
  {
   "property": "C134",
   "status": "proved",
   "theorems": [
    "PAN.C134_waits",
    "PAN.C134_box",
    "PAN.C134_first_boot",
    "PAN.C134_ends"
   ],
   "note": "Cycles are assumed to be numbered from 1, as they are after a boot (Model/Boot.lean). A cycle that hangs (kill switch) has no successor."
  },
  {
   "property": "C135",
   "status": "proved",
   "theorems": [
    "PAN.C135_follows",
    "PAN.C135_told",
    "PAN.C135_counterexample_commanded"
   ],
   "note": "The condition that nobody commands the two states is needed: C135_counterexample_commanded."
  },
  {
   "property": "C136",
   "status": "proved",
   "theorems": [
    "PAN.C136_planned",
    "PAN.C136_pointing",
    "PAN.C136_counterexample_old"
   ],
   "note": "Of the estimates, the flags are linked between the estimators and the control tasks; the vectors the controllers compute with remain arbitrary inputs. How long ago the other satellite was heard of is not limited by the code: C136_counterexample_old."
  },
  {
   "property": "C139",
   "status": "proved",
   "theorems": [
    "PAN.C139_off_in_startup",
    "PAN.C139_switched_on",
    "PAN.C139_not_lost"
   ],
   "note": "It is assumed that no other task or ground command writes the off command, in startup the mission state, or after it the request and the switching period."
  },
  {
   "property": "C137",
   "status": "partial",
   "theorems": [
    "PAN.C137_cycle_of_time_partial",
    "PAN.C137_counterexample_wraps",
    "PAN.C137_time_of_cycle",
    "PAN.C137_round_trip_partial",
    "PAN.C137_monotone_partial"
   ],
   "note": "Cycle to time is proved for all cycles. Time to cycle, and with it the round trip, holds exactly for the first 2\u00b3\u00b2 \u00b5s (C137_counterexample_wraps)."
  },
  {
   "property": "C138",
   "status": "proved",
   "theorems": [
    "PAN.C138_power_cycled",
    "PAN.C138_not_lost",
    "PAN.C138_off_and_on"
   ],
   "note": "It is assumed that no other task or ground command writes the request, the shown output or the switching period after the request. C138_off_and_on is for a supply that obeys and answers truthfully (C46_counterexample_unread), and up to the next request of fault handling."
  },
  {
   "property": "C140",
   "status": "proved",
   "theorems": [
    "PAN.C140_assign",
    "PAN.C140_copy",
    "PAN.C140_size"
   ],
   "note": "`resize` stays callable by users (the header asks that only constructors use it) and is not among the operations; writes past the end are undefined behaviour and end the run."
  },
  {
   "property": "C141",
   "status": "proved",
   "theorems": [
    "PAN.C141_lookup",
    "PAN.C141_severity",
    "PAN.C141_answers",
    "PAN.C141_counterexample_read_only"
   ],
   "note": "The error code for a read-only field has no text (C141_counterexample_read_only); the console never reports it. Callers outside the console are assumed to pass members of the enumeration."
  },
  {
   "property": "C142",
   "status": "proved",
   "theorems": [
    "PAN.C142_since",
    "PAN.C142_since_power_up",
    "PAN.C142_unconnected",
    "PAN.C142_difference"
   ],
   "note": "Flight build. A disconnection during which nothing is printed is not noticed by the code, and the theorems say so: they speak of the last call made without a connection."
  }
 ]
}