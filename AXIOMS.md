# Axioms of the theorems

Generated by `tools/axioms.py` from `#print axioms` for every theorem of MANIFEST.json.

## none (13)

`C08_counterexample_unset_minus_becomes_set`, `C23_counterexample_cycle_zero`, `C25_disabled`, `C40_schedule_locked`, `DCDC.C48_reported`, `DCDC.C48_follows`, `DCDC.C48_reset_from_off`, `DCDC.C48_counterexample_both`, `DCDC.C48_boot_reads`, `C57_counterexample_decode_above_max`, `C105_bool`, `C123_apart`, `C141_severity`

## propext (29)

`C08_unset_never_less_or_equal_partial`, `C08_counterexample_unset_is_later`, `C20_fault_refused_leaves_fields`, `C24_empty_storage_out_of_bounds`, `C25_most_severe`, `C26_simple`, `C26_nothing_in_docking`, `C26_polled`, `C29_any_state`, `C30_standby`, `C37_interrupt_opens`, `C54_chain`, `C54_reset`, `C54_reset_once`, `C88_time`, `C88_orbit`, `C88_attitude`, `C89_field`, `C105_counterexample_wraps`, `C105_counterexample_refused_time`, `C109_auto`, `C110_counterexample_never_counted`, `C110_counterexample_timeout`, `C110_counterexample_receive`, `C125_counterexample_shared`, `C136_counterexample_old`, `C141_answers`, `C141_counterexample_read_only`, `C142_unconnected`

## propext, Classical.choice, Quot.sound (549)

`C01_write_exact`, `C01_write_then_read`, `C01_write_sequence`, `C02_read_sequential`, `C02_peek`, `C02_read_bit_array`, `C03_write_in_bounds_iff_partial`, `C03_excess_dropped_partial`, `C04_read_value`, `C04_store_read_partial`, `C04_store_safe`, `C04_store_uint`, `C05_roundtrip_partial`, `C05_monotone_partial`, `C05_range_constructor_exact`, `C05_sized_constructor_partial`, `C06_gps_roundtrip`, `C06_gps_any_history`, `C07_nanoseconds_round_trip`, `C07_order_is_nanosecond_order`, `C09_consume`, `C09_rejected_changes_nothing`, `C09_no_packet`, `C10_accepted_updates_exactly`, `C10_change_only_when_accepted`, `C10_updates_unique`, `C11_ground_to_space`, `C12_counterexample_eight_bits_of_padding`, `C12_padding_partial`, `C13_roundtrip_partial`, `C13_short_frame_partial`, `C13_short_packet_received_partial`, `C13_counterexample_two_packets`, `C13_counterexample_duplicate_ids_accepted`, `C13_continued_partial`, `C13_counterexample_flow_off`, `C14_frame_content_partial`, `C14_single_packet_partial`, `C14_counterexample_second_header`, `C15_overrun_iff_partial`, `C15_inactive_slack_partial`, `C15_counterexample_aligned_frame`, `C15_counterexample_long_frame`, `C16_flows_preserved`, `C16_toggle`, `C16_shift_partial`, `C16_commands_cleared`, `C16_counterexample_shift_different_sizes`, `C16_counterexample_invalid_toggle`, `C17_desktop`, `C17_teensy_exact`, `C17_teensy_partial`, `C17_teensy_flight`, `C17_counterexample_teensy_wide`, `C18_desktop`, `C18_teensy_bool_partial`, `C18_counterexample_teensy_erased`, `C18_counterexample_teensy_deployment`, `C20_unique`, `C20_refused_iff_taken`, `C20_fault_registration`, `C20_lookup_exact`, `C20_lookup_stable`, `C21_fault_trips_after_persistence`, `C21_fault_trips_on_consecutive_evaluations`, `C22_override_forces_fault`, `C22_suppress_masks_fault`, `C22_command_restarts_count`, `C22_no_command_answer`, `C25_flight_safehold`, `C25_flight_standby`, `C26_startup`, `C27_step`, `C27_waits`, `C27_timeline`, `C28_contact_clears`, `C28_contact_clears_next`, `C29_standby_iff`, `C31_safehold`, `C31_manual`, `C32_stays`, `C32_after_fault`, `C33_standby`, `C33_no_effect`, `C34_desktop`, `C34_teensy_partial`, `C34_counterexample_teensy`, `C34_leaves_in_time`, `C35_attempt_partial`, `C35_flag_clear_partial`, `C35_stale_entry_kept`, `C35_stale_entry_ends`, `C35_counterexample_interrupted`, `C36_reset_after_a_day_partial`, `C36_counterexample_radio_silence`, `C37_timer_start`, `C37_thrust_valve_opens`, `C37_history`, `C38_pressurise_budget`, `C38_vent_budget`, `C38_pressurise_outcome`, `C38_fill_time`, `C38_vent_time`, `C38_vent_ends`, `C39_disabled_partial`, `C40_open_time`, `C40_never_reopens`, `C40_one_opens_per_tick`, `C40_terminates`, `C41_fires_as_commanded_partial`, `C41_driver_executes_partial`, `C42_leaves_state`, `C42_leaves_any_state`, `C42_moves`, `C42_recovers`, `C42_back_to_config`, `C42_waits_iff_error`, `C43_one_call`, `C43_starts_at_first`, `C43_in_order`, `C43_completes`, `C43_silent`, `C43_other_tasks`, `C43_counterexample_ground_ladder`, `C44_packets`, `C44_fresh_copy`, `C44_covers_partial`, `C44_counterexample_tail`, `C44_when_complete`, `C44_counterexample_leak`, `C45_checked_partial`, `C45_complete_message`, `C45_counterexample_length`, `C45_counterexample_missing`, `C46_power_cycle`, `C46_others_left_alone`, `C46_counterexample_unread`, `Dock.C49_steps_partial`, `Dock.C49_awake`, `Dock.C49_completes_partial`, `Dock.C49_counterexample_default`, `Dock.C49_counterexample_withdrawn`, `Dock.C49_counterexample_zero`, `Dock.C49_counterexample_delay`, `C50_limit_partial`, `C50_faithful`, `C50_above_limit`, `C50_counterexample_above`, `C50_counterexample_negative_limit`, `C50_off`, `C51_messages`, `C51_delivered_partial`, `C51_counterexample_both`, `C55_nonneg`, `C55_produces`, `C55_time_monotone`, `C55_time_zero`, `C55_time`, `C55_counterexample_wasteful`, `C55_counterexample_too_much`, `C56_shutdown`, `C56_converters_partial`, `C56_counterexample_reset`, `C56_stays`, `C56_completes`, `C57_decode_any_bits_partial`, `C57_decode_value_partial`, `C58_counterexample_low_battery`, `C58_radio_back_on_partial`, `C59_no_reset_before_a_day_partial`, `C59_counterexample_ground_safehold`, `C60_edges`, `C60_taken`, `C61_exactly`, `C61_stopped`, `C61_after_reboot_partial`, `C61_kept_partial`, `C61_stops_again_partial`, `C61_counterexample_period`, `C61_counterexample_docked`, `C62_radio_on_after_startup_partial`, `C62_counterexample_docked`, `C63_configured`, `C63_otherwise`, `C63_undefined_keeps_propulsion`, `C64_back_on_partial`, `C64_stays_off`, `C64_counterexample_fault`, `C65_housekeeping_partial`, `C65_failed_read`, `C66_heater_partial`, `C66_counterexample_first`, `C68_one_shot`, `C69_receiver_held_off`, `C69_off_from_boot`, `C67_low_battery`, `C67_counterexample_stale`, `C71_accepted`, `C71_error_code`, `C72_contact`, `C52_mode`, `C52_startup`, `C52_wheels_disabled`, `C52_torque_only_pointing`, `C52_zero_torque`, `C52_detumble`, `C52_pointing`, `C52_manual`, `C52_zero_moment_is_off`, `C52_zero_torque_is_off`, `C52_rods_end_to_end`, `C52_wheels_end_to_end`, `C73_rods_applied`, `C73_wheels_applied`, `C73_whole_commands`, `C73_at_most_once`, `C74_no_undefined_partial`, `C74_counterexample_mode_race`, `C75_disabled_wheels_keep_turning`, `C75_counterexample_detumble`, `C75_stop_partial`, `C75_never_stopped`, `C76_passive_keeps_driving`, `C76_counterexample_safehold`, `C76_no_new_actuation_partial`, `C76_never_switched_off`, `C77_off_until_reset`, `C77_no_torque`, `C77_in_service`, `C77_reported`, `C79_tracker_mode`, `C79_voltages`, `C80_heater_on`, `C80_reading`, `C80_out_of_service`, `C80_stuck`, `C81_torque`, `C81_no_potentiometer`, `C81_speed_never_reverses`, `C53_safe`, `C53_published`, `C53_kept`, `C53_only_with_fix`, `C53_source`, `C53_end_to_end_spp`, `C53_end_to_end_rtk`, `C82_safe`, `C82_chunks`, `C82_delivered`, `C82_recovers`, `C82_sound`, `C82_burst`, `C82_odd`, `C82_checksum`, `C82_sent`, `C83_age_partial`, `C83_first`, `C83_young`, `C83_counterexample_wrap`, `C84_counterexample_velocity`, `C84_counterexample_baseline`, `C85_valid_iff`, `C85_time`, `C86_used`, `C86_too_late`, `C86_rejected`, `C86_replaced`, `C87_fresh`, `C87_counterexample_stale_baseline`, `C88_counterexample_relative`, `C89_fault`, `C90_only_when`, `C90_countdown`, `C90_counterexample_direction`, `C90_counterexample_node`, `C90_counterexample_half`, `C90_nodes`, `C90_fresh`, `C90_counterexample_gain`, `C91_not_early`, `C91_spacing`, `C91_lates`, `C91_on_time`, `C91_published`, `C91_duration`, `C91_counterexample_overflow`, `C91_counterexample_average`, `C91_counterexample_short`, `C92_arrive`, `C93_counterexample_ramp_filter`, `C93_counterexample_frozen_when_disabled`, `C93_counterexample_frozen_when_passive`, `C93_counterexample_startup`, `C93_speeds_partial`, `C93_counterexample_torque`, `C93_counterexample_lost_converter`, `C93_memory`, `C94_asked`, `C94_gyroscope_turned`, `C94_counterexample_mirrored`, `C94_answered`, `C94_mag1`, `C94_mag2`, `C94_gyro`, `C94_temperature`, `C95_answered`, `C95_voltage`, `C95_counterexample_negative`, `C96_device_faults`, `C96_box_fault`, `C96_box_fault_delay`, `C96_sun_vector`, `C96_device_table`, `C96_counterexample_flags`, `C96_counterexample_silent`, `C96_flags_partial`, `C97_accuracy`, `C97_decode`, `C97_float`, `C97_double`, `C97_counterexample_upper_end`, `C97_counterexample_echo`, `C97_counterexample_saturated`, `C97_counterexample_reversed`, `C98_rounded_range_partial`, `C98_counterexample_overflow`, `C98_accuracy_partial`, `C98_counterexample_axis`, `C98_counterexample_mirrored`, `C98_counterexample_precision`, `C98_rounded_partial`, `C98_float`, `C98_double`, `C98_counterexample_underflow`, `C98_counterexample_pole`, `C99_accuracy`, `C99_counterexample_zero`, `C99_counterexample_bits`, `C99_rounded_partial`, `C99_float_partial`, `C99_counterexample_underflow`, `C99_float_range_partial`, `C99_counterexample_overflow`, `C101_calibrated`, `C101_no_overflow`, `C101_counterexample_waits`, `C101_counterexample_frozen`, `C103_reported`, `C103_best_fit`, `C103_direction_partial`, `C103_one_face`, `C103_sensors`, `C103_counterexample_plane`, `C103_counterexample_tilt`, `C104_integer`, `C104_real`, `C104_time`, `C104_vector_partial`, `C104_quaternion`, `C104_delivered_partial`, `C104_flight_integers`, `C104_counterexample_mirrored`, `C104_counterexample_axis`, `C104_counterexample_all_axes`, `C104_counterexample_battery`, `C104_counterexample_converter`, `C104_counterexample_docking_timeout`, `C104_counterexample_wraps`, `C104_counterexample_temperature`, `C104_counterexample_week`, `C104_checked`, `C105_print_integer`, `C105_print_real`, `C105_read_integer`, `C105_refused_integer`, `C105_integer_round_trip_partial`, `C105_read_real`, `C105_refused_real`, `C105_real_round_trip`, `C105_vector_round_trip_partial`, `C105_time_partial`, `C105_counterexample_unsigned`, `C105_counterexample_too_large`, `C105_counterexample_time`, `C105_counterexample_components`, `C105_counterexample_words`, `C106_real_partial`, `C106_nonfinite`, `C106_counterexample_real`, `C106_flight_reals`, `C106_vector_partial`, `C106_counterexample_position`, `C106_time_partial`, `C106_time_decoded`, `C106_counterexample_time`, `C107_write_number`, `C107_found_partial`, `C107_counterexample_sixth`, `C107_counterexample_brace`, `C107_counterexample_malformed`, `C107_counterexample_passed_over`, `C108_uplink_partial`, `C108_fits`, `C108_as_by_radio`, `C108_counterexample_short`, `C108_counterexample_length`, `C109_waits`, `C109_once`, `C110_recent_errors`, `C110_pop`, `C110_after_setup`, `C110_attitude_box`, `C110_power_supply_partial`, `C110_counterexample_silence`, `C110_attitude_box_setup`, `C111_other_groups`, `C111_same_as_whole`, `C111_counterexample_config`, `C111_counterexample_config2`, `C112_pressure`, `C112_overpressure`, `C112_ready`, `C112_counterexample_coarse`, `C112_too_hot`, `C112_temp_falls`, `C112_counterexample_range`, `C113_dops`, `C113_uart`, `C113_iar`, `C113_healthy`, `C113_counterexample_swiftnap`, `C113_counterexample_base`, `C113_log_partial`, `C113_counterexample_log_text`, `C113_counterexample_dump`, `C113_commands`, `C113_counterexample_settings`, `C114_powered_partial`, `C114_counterexample_unpowered`, `C114_safehold_still`, `C114_docked`, `C114_counterexample_configuration`, `C115_flown`, `C115_enough_time`, `C115_counterexample_near`, `C116_starts_iff`, `C116_lookup`, `C116_flight_starts`, `C116_flight_eeprom`, `C116_flight_writable`, `C117_flight_accepted`, `C117_no_overrun`, `C117_always_produces`, `C117_default_frame_partial`, `C117_counterexample_cycle_number`, `C117_counterexample_ground`, `C117_counterexample_toggle`, `C117_counterexample_shift`, `C118_mode_read`, `C118_vector_read`, `C118_request`, `C118_modes`, `C118_complete`, `C118_read_together`, `C118_flight`, `C118_counterexample_stuck`, `C119_off`, `C119_exact`, `C120_written_partial`, `C120_read_back_partial`, `C120_stream`, `C120_counterexample_position`, `C120_counterexample_overwritten`, `C121_generated`, `C121_field`, `C121_range`, `C121_flight_ranges`, `C121_flow`, `C121_only`, `C121_counterexample_not_a_field`, `C121_counterexample_two_flows`, `C121_flight`, `C122_recorded`, `C122_part`, `C122_counterexample_sixth`, `C122_contact`, `C123_counterexample_four`, `C123_box`, `C123_inputs`, `C123_field`, `C123_temperature`, `C123_rate`, `C123_counterexample_rate`, `C123_field2`, `C123_counterexample_field2`, `C124_field_partial`, `C124_echo_partial`, `C124_counterexample_pressure`, `C124_vector_partial`, `C124_counterexample_vanishes`, `C125_uplink`, `C126_valves`, `C126_counts`, `C126_pings`, `C126_pings_sharp`, `C127_history`, `C127_command`, `C127_counterexample_length`, `C128_counterexample_nothing_stops`, `C128_counterexample_box_active`, `C128_counterexample_fires`, `C128_with_both_commands_partial`, `C128_radio_partial`, `C129_low_battery_partial`, `C129_lost_wheel_partial`, `C129_low_answers_partial`, `C129_reset_delivered`, `C129_counterexample_docking`, `C130_handled`, `C130_vented`, `C130_opened`, `C131_refines`, `C131_valves`, `C131_vented`, `C132_accepted`, `C132_flown`, `C132_enough_time`, `C132_as_planned_partial`, `C133_no_plan`, `C133_planned`, `C133_counterexample_standby`, `C134_waits`, `C134_box`, `C134_first_boot`, `C134_ends`, `C135_follows`, `C135_told`, `C135_counterexample_commanded`, `C136_planned`, `C136_pointing`, `C139_off_in_startup`, `C139_switched_on`, `C139_not_lost`, `C138_power_cycled`, `C138_not_lost`, `C138_off_and_on`, `C140_assign`, `C140_copy`, `C140_size`

## propext, Quot.sound (110)

`C02_seek`, `C03_counterexample_write_past_end`, `C03_counterexample_write_across_end`, `C04_counterexample_large_value_refused`, `C05_counterexample_signed_char_step`, `C06_gps_unset`, `C07_time_round_trip`, `C07_add_nanoseconds`, `C07_add_times`, `C07_sub_nanoseconds`, `C07_sub_times`, `C13_counterexample_full_packet`, `C16_no_command`, `C17_flight_fields_fit`, `C19_no_active_state`, `C19_flight`, `C23_one_count_per_cycle_partial`, `C24_event_roundtrip`, `C24_ground_reads_record`, `C24_ring_holds_last`, `C30_vents_right_tank`, `C30_fault_detected`, `C30_handling_fault`, `C30_budget_restored_partial`, `C30_gives_up`, `C30_counterexample_budget_lost`, `C30_counterexample_ground_budget_undone`, `C37_firing_entry`, `C38_pressurise_ends`, `C38_counterexample_ground_idle`, `C39_disabled`, `C39_counterexample_refused_firing`, `C41_fires_on_time`, `C41_counterexample_1000`, `C44_counterexample_overread`, `C47_counterexample_order`, `C47_counterexample_default`, `C47_partial`, `DCDC.C48_disable`, `DCDC.C48_reset`, `C58_counterexample_skipped`, `C65_counterexample_boot`, `C70_completes_partial`, `C70_counterexample_period`, `C67_default_threshold`, `C78_valid_partial`, `C78_nothing_left`, `C78_point_manual_keeps_torque`, `C53_counterexample_short`, `C83_cases`, `C87_kept`, `C87_kept_anew`, `C87_counterexample_dropped_early`, `C97_infinite`, `C97_counterexample_nan`, `C97_counterexample_single`, `C100_reset`, `C100_service`, `C100_disabled`, `C100_reading`, `C100_components`, `C100_answers`, `C101_service`, `C101_reset`, `C101_ends_partial`, `C102_value`, `C102_service`, `C102_counterexample_waits`, `C107_commands_partial`, `C107_refused_flag`, `C107_counterexample_value`, `C107_counterexample_never_ends`, `C110_setup`, `C110_functional_partial`, `C110_counterexample_in_a_row`, `C110_timeout`, `C110_counterexample_stale_answer`, `C110_receive_partial`, `C111_counterexample_port`, `C111_config_sent`, `C111_config2_sent`, `C111_counterexample_restore`, `C111_heater_partial`, `C111_counterexample_heater`, `C111_config_refused_partial`, `C113_msg_len`, `C115_begins`, `C115_counterexample_dropped`, `C121_priority`, `C121_flow_readback`, `C121_counterexample_field_readback`, `C121_counterexample_readback`, `C122_counterexample_header`, `C123_measures_partial`, `C123_signals`, `C123_counterexample_no_reset`, `C123_settings`, `C125_report`, `C125_command`, `C125_read`, `C130_counterexample_disabled`, `C137_cycle_of_time_partial`, `C137_counterexample_wraps`, `C137_time_of_cycle`, `C137_round_trip_partial`, `C137_monotone_partial`, `C141_lookup`, `C142_since`, `C142_since_power_up`, `C142_difference`
