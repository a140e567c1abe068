{"claims": [
  {"property": "C01", "status": "proved", "theorems": ["Verif.Proto.framing_round_trip", "Verif.Proto.send_receive_round_trip"], "note": "Device receive loop; reads limited only by the read buffer size; overflow proved impossible."},
  {"property": "C02", "status": "partial", "theorems": ["Verif.Proto.delivered_were_sent_partial", "Verif.Proto.delivered_were_sent_violation"], "note": "False for length fields 2^32-18..2^32-1 (32-bit wrap): violation proved; proved for all other inputs."},
  {"property": "C03", "status": "proved", "theorems": ["Verif.Proto.receive_memory_safe", "Verif.Proto.buffer_history_safe", "Verif.Proto.append_accepted"], "note": ""},
  {"property": "C04", "status": "partial", "theorems": ["Verif.Proto.out_fifo_partial", "Verif.Proto.out_fifo_violation"], "note": "False when only the closing tag does not fit the output buffer (violation proved); proved while there is room. Direct-write device builds: see send_receive_round_trip."},
  {"property": "C05", "status": "proved", "theorems": ["Verif.Proto.rr_id_unique"], "note": ""},
  {"property": "C06", "status": "proved", "theorems": ["Verif.SrpcQueue.queue_is_fifo", "Verif.SrpcQueue.spec_pop_unique"], "note": "Explicit heap; includes no leak / no double reference."},
  {"property": "C07", "status": "proved", "theorems": ["Verif.Crc16.burst_detected", "Verif.Crc16.single_byte_detected", "Verif.Crc16.odd_flips_detected", "Verif.Crc16.double_flip_detected"], "note": "All lengths and positions; double flips up to 32766 bits apart."},
  {"property": "C08", "status": "proved", "theorems": ["Verif.KeyValue.store_is_typed_map", "Verif.KeyValue.set_get"], "note": "Keys identified by first 15 characters."},
  {"property": "C09", "status": "partial", "theorems": ["Verif.KeyValue.survives_reload_partial", "Verif.KeyValue.survives_reload_violation", "Verif.KeyValue.survives_reload_size_violation"], "note": "Fails for empty blob as oldest entry and for values >= 65536 bytes (violations proved); proved for all other stores."},
  {"property": "C10", "status": "partial", "theorems": ["Verif.KeyValue.load_safe_partial", "Verif.KeyValue.load_safe_terminated_partial", "Verif.KeyValue.load_safe_violation"], "note": "Unterminated string entries make strlen overrun the heap copy (violation proved); no read outside the image and termination proved for every image."},
  {"property": "C11", "status": "partial", "theorems": ["Verif.KeyValue.erase_partial", "Verif.KeyValue.erase_violation"], "note": "Erasing the head element leaves a dangling pointer (violation proved); proved for every other key."},
  {"property": "C12", "status": "partial", "theorems": ["Verif.Storage.write_read_partial", "Verif.Storage.write_read_fails_iff", "Verif.Storage.write_read_violation", "Verif.Storage.write_read_history_violation", "Verif.Storage.write_persists_partial"], "note": "False in general (write_read_violation, exact failure condition in write_read_fails_iff): rewriting the bytes already on the medium does not repair a stale checksum. Proved for every other medium content, and across later operations on other sections."},
  {"property": "C13", "status": "proved", "theorems": ["Verif.Storage.step_frame", "Verif.Storage.history_frame", "Verif.Storage.sections_isolated", "Verif.Storage.outside_untouched", "Verif.Storage.register_unique", "Verif.Storage.register_accepts_overlap"], "note": "Frame theorem for every layout of non-overlapping sections and every history; registration itself does not check overlap (register_accepts_overlap)."},
  {"property": "C14", "status": "partial", "theorems": ["Verif.Storage.crash_safe_partial", "Verif.Storage.crash_safe_window_partial", "Verif.Storage.crash_history_partial", "Verif.Storage.write_keeps_copies", "Verif.Storage.crash_safe_violation", "Verif.Storage.crash_mixture_violation", "Verif.Storage.crash_twice_violation", "Verif.Storage.crash_retry_violation"], "note": "False in general: CRC coincidence (crash_mixture_violation), second crash (crash_twice_violation), retried write (crash_retry_violation). Proved from intact copies, after any history, for every crash point when no mixture carries the old CRC; unconditional when old and new differ within 16 bits."},
  {"property": "C15", "status": "partial", "theorems": ["Verif.WearByte.crash_safe_partial", "Verif.WearByte.reboot_partial", "Verif.WearByte.history_partial", "Verif.WearByte.crash_safe_violation", "Verif.WearByte.reboot_loses_save_violation", "Verif.WearByte.reboot_loses_later_save_violation", "Verif.WearByte.torn_record_violation", "Verif.WearByte.one_slot_violation"], "note": "False in general, with witnesses: clean reboot after the save with write count 2 restores the previous state; torn main address record loses everything although the backup is intact; section with room for 1.5 slots uses one slot as both. Proved without CRC assumptions for every layout with two real slots, every history of saves (and reboots in safe states), every crash point outside the main record."},
  {"property": "C16", "status": "partial", "theorems": ["Verif.WearSector.state_survives_partial", "Verif.WearSector.backup_never_valid", "Verif.WearSector.wrap_window_loses", "Verif.WearSector.wrap_window_violation", "Verif.WearSector.crash_safe_with_backup_tag", "Verif.WearSector.two_sectors_violation", "Verif.WearSector.three_sectors_violation"], "note": "Proved for every sector size, at least 4 data sectors (5 if a slot is a whole sector), bitmap large enough: saves never fail, and after any history of completed saves and power losses (at Regular points) the state found is the previous or the new one for every cut outside the rewrite of the main index sector at the return to slot 0. In that window the full claim is false for every geometry, because the backup index sector never receives its tag. Byte programming and sector erase are taken as atomic; the state size is fixed."},
  {"property": "C17", "status": "partial", "theorems": ["Verif.Storage.throttle_partial", "Verif.Storage.throttle_after_save_partial", "Verif.Storage.throttle_violation", "Verif.Storage.no_save_within_period", "Verif.Storage.scheduled_not_late", "Verif.Storage.period_min"], "note": "False when the requested delay exceeds the period by more than one (throttle_violation: default period 1000 ms with the 5000 ms delay used by relays saves at once). Proved exact against an unbounded-time reference otherwise, over all histories and clock wraps; scheduled saves are never late for any delay."},
  {"property": "C18", "status": "partial", "theorems": ["Verif.Button.reports_alternate", "Verif.Button.reports_spaced", "Verif.Button.debounce_sound_partial", "Verif.Button.debounce_complete", "Verif.Button.debounce_wrap_violation"], "note": "Alternation, spacing and completeness proved for every waveform; the noise-filter clause is proved when the previous report is less than 2^32 ms ago (false otherwise, debounce_wrap_violation)."},
  {"property": "C19", "status": "partial", "theorems": ["Verif.Button.burst_exact_partial", "Verif.Button.session_exact_partial", "Verif.Button.clock_zero_violation"], "note": "Any number of bursts, monostable, bistable and motion sensor; excluded are changes at clock reading 0, where the claim is false (clock_zero_violation)."},
  {"property": "C20", "status": "partial", "theorems": ["Verif.Button.hold_sound_partial", "Verif.Button.hold_complete", "Verif.Button.passesOf_coherent", "Verif.Button.repeat_spacing_violation", "Verif.Button.hold_wrap_violation"], "note": "Proved for histories with fewer than 65536 hold events; repeat number k is not earlier than hold time + k x repeat time. The literal spacing claim and the claim without the bound are false (witnesses)."},
  {"property": "C21", "status": "proved", "theorems": ["Verif.Condition.holds_iff", "Verif.Condition.condition_edges", "Verif.Condition.fires_iff", "Verif.Condition.never_fires_other", "Verif.Condition.repeat_silent"], "note": "Conditions over any value type with an abstract order; floating point comparison abstracted by the order relation."},
  {"property": "C22", "status": "partial", "theorems": ["Verif.Actions.dispatch_exact_partial", "Verif.Actions.out_of_range_violation", "Verif.Actions.reentrant_calls", "Verif.Actions.reentrant_linked", "Verif.Actions.reentrant_safe", "Verif.Actions.reentrant_ends", "Verif.Actions.reentrant_complete", "Verif.Actions.self_delete_violation", "Verif.Actions.self_add_violation"], "note": "Exact dispatch for events and actions in 0..65535; with out-of-range numbers enable/disable also touch number 0 (witness). With handlers that change the registrations while they run: order, once only, only live and enabled ones, nothing left out, no deleted registration read and an end, each under the hypotheses stated; false for a handler that unregisters itself (freed node read) or registers itself again for the same event (endless)."},
  {"property": "C23", "status": "partial", "theorems": ["Verif.Relay.timed_on_ends_partial", "Verif.Relay.timed_on_wrap_violation", "Verif.Relay.untimed_on_stays", "Verif.Relay.timed_off_ends_partial"], "note": "Exact turn-off pass for every reachable relay, turn-on command, duration and history of other operations, provided passes come often enough that elapsed time cannot wrap between two passes (witness otherwise). Pin driver abstracted to a register."},
  {"property": "C24", "status": "partial", "theorems": ["Verif.Relay.restart_survives_partial", "Verif.Relay.restart_due_violation", "Verif.Relay.restart_turns_on_violation"], "note": "Proved except for ordinary restoring relays saved while the timer is due, or with the countdown function disabled (witnesses)."},
  {"property": "C25", "status": "proved", "theorems": ["Verif.Shutter.outputs_interlocked"], "note": "Every pin write of every history, any configuration and clock."},
  {"property": "C26", "status": "partial", "theorems": ["Verif.Shutter.pause_before_reversing_partial", "Verif.Shutter.pause_config_violation", "Verif.Shutter.pause_clock_violation"], "note": "Proved for histories without a motor-direction change while moving and without a stop at clock reading 0; both exclusions are shown necessary by the violations."},
  {"property": "C27", "status": "partial", "theorems": ["Verif.Shutter.position_in_range", "Verif.Shutter.position_directed_partial", "Verif.Shutter.position_jump_violation", "Verif.Shutter.position_undefined_violation"], "note": "The range claim holds in full. Monotonicity holds while times and position are not overridden (position_directed_partial); the two violations show a jump on new travel times and a reachable undefined conversion."},
  {"property": "C28", "status": "partial", "theorems": ["Verif.Shutter.motor_stops_partial", "Verif.Shutter.never_stops_violation"], "note": "Bound 4T+61000+8g ms after any history of sane operations (valid targets, travel times 0 or 4..T ms, times not removed mid-movement, calibration not overridden). Full claim is AlwaysStops, refuted by never_stops_violation."},
  {"property": "C29", "status": "partial", "theorems": ["Verif.Rgbw.fade_toward", "Verif.Rgbw.fade_in_time", "Verif.Rgbw.device_range_partial", "Verif.Rgbw.device_range_violation", "Verif.Rgbw.geometric_bounded", "Verif.Rgbw.linear_bounded"], "note": "Fade direction, hardware range and end of the fade (4 fade times + 3 pass gaps) proved for every history. Range of the values given to the device only with limits within the hardware range; the full claim is refuted."},
  {"property": "C30", "status": "partial", "theorems": ["Verif.Rgbw.restore_white_partial", "Verif.Rgbw.restore_colour_partial", "Verif.Rgbw.switch_keeps_colour", "Verif.Rgbw.restore_zero_violation", "Verif.Rgbw.restore_sync_violation", "Verif.Rgbw.brightness_in_range"], "note": "Proved for every history of all operations including restarts, except brightness 0 set without turning on and joint iteration of both brightnesses; both exceptions are counterexamples."},
  {"property": "C31", "status": "proved", "theorems": ["Verif.Tools.hex_written", "Verif.Tools.hex_bounds", "Verif.Tools.hex_round_trip", "Verif.Tools.hex_injective", "Verif.Tools.hex_number", "Verif.Tools.hex_number_exact", "Verif.Tools.hexDigit_spec", "Verif.Tools.hexVal_spec"], "note": "text is exactly the specified one, bounds exact, round trip, injective"},
  {"property": "C32", "status": "partial", "theorems": ["Verif.Tools.encode_longest_prefix", "Verif.Tools.encode_all", "Verif.Tools.fitting_longest", "Verif.Tools.fitting_fits", "Verif.Tools.fitting_prefix", "Verif.Tools.encode_safe_partial", "Verif.Tools.decode_safe_partial", "Verif.Tools.decode_meaning", "Verif.Tools.url_round_trip", "Verif.Tools.encode_safe_violation", "Verif.Tools.decode_safe_violation", "Verif.Tools.decode_meaning_violation"], "note": "round trip for every text proved; bounds for sizes of at least 1 and terminated buffers; false otherwise (violations)"},
  {"property": "C33", "status": "partial", "theorems": ["Verif.Channel.every_change_reported", "Verif.Channel.send_reports", "Verif.Channel.redundant_write_silent", "Verif.Channel.everything_reported_partial", "Verif.Channel.validity_not_reported_violation"], "note": "Reporting of value and offline state proved for all histories; the validity time is not reported (violation). Bool/RGBW specific events: C46."},
  {"property": "C34", "status": "partial", "theorems": ["Verif.Channel.numbers_stay_ok_partial", "Verif.Channel.automatic_number", "Verif.Channel.renumber_exchanges", "Verif.Channel.negative_number_violation", "Verif.Channel.number_above_limit_violation"], "note": "Proved for requests in the permitted range; the code accepts Channel(-2) and setChannelNumber(>=128) (violations)."},
  {"property": "C35", "status": "partial", "theorems": ["Verif.Counter.uptime_exact_partial", "Verif.Counter.connection_uptime_exact_partial", "Verif.Counter.uptime_never_ahead", "Verif.Counter.uptime_hour_violation", "Verif.Counter.first_cause_kept"], "note": "Exact for every schedule with passes at most 59 min 59 s apart, across clock wraps, also connection uptime; never ahead for any gaps; gap of exactly one hour loses the hour (violation)."},
  {"property": "C36", "status": "partial", "theorems": ["Verif.Sequence.recording_in_bounds", "Verif.Sequence.rhythm_verdict_partial", "Verif.Sequence.long_hold_violation", "Verif.Sequence.short_interval_violation", "Verif.Sequence.full_sequence_violation", "Verif.Sequence.counter_wrap_violation", "Verif.Sequence.verdict_ends_rhythm", "Verif.Sequence.pause_within_margin_kept_partial", "Verif.Sequence.pause_cut_off_violation"], "note": "Buffer safety for all rhythms; verdict = rule for rhythms up to 254 intervals under 65.5 s and sequences under 30 entries of at least 20 ms; violations outside."},
  {"property": "C37", "status": "partial", "theorems": ["Verif.Ocr.parseId_in_bounds", "Verif.Ocr.parseId_terminated", "Verif.Ocr.span_end_after_start", "Verif.Ocr.parse_in_bounds_partial", "Verif.Ocr.hundred_characters_violation", "Verif.Ocr.measurement_of_digits", "Verif.Ocr.accept_plausible", "Verif.Ocr.readings_plausible_partial", "Verif.Ocr.counter_is_reading", "Verif.Ocr.counter_lost_after_restart_violation", "Verif.Ocr.counter_stays_zero", "Verif.Ocr.clock_set_back_violation"], "note": "Plausibility for all histories with a clock that does not go back; buffer safety except a measurement text of exactly 100 characters; violations: clock set back accepts any jump, counter shows 0 after restart, off-by-one write."},
  {"property": "C38", "status": "partial", "theorems": ["Verif.Counter.impulse_counts_exactly_partial", "Verif.Counter.counted_edges_apart", "Verif.Counter.spec_rate", "Verif.Counter.impulse_lost_after_silence_violation", "Verif.Counter.impulse_shown", "Verif.Counter.impulse_counter_grows", "Verif.Counter.remote_reset_needs_rights"], "note": "Exact count for every waveform with a pulse at least every 49.7 days; spacing of counted edges for all; violation after longer silence."},
  {"property": "C39", "status": "partial", "theorems": ["Verif.Counter.seconds_measure_enabled_time_partial", "Verif.Counter.seconds_nothing_lost_while_disabled", "Verif.Counter.double_disable_violation", "Verif.Counter.repeated_enable_violation", "Verif.Counter.seconds_never_shown_violation", "Verif.Counter.seconds_shown_frozen"], "note": "Exact within one second for every history with alternating enable/disable; violations for repeated enable or disable; the value is never published."},
  {"property": "C40", "status": "partial", "theorems": ["Verif.Aggregator.registration_exact", "Verif.Aggregator.commanded_as_wanted", "Verif.Aggregator.relay_follows_partial", "Verif.Aggregator.relay_follows_after_reading", "Verif.Aggregator.not_in_charge_hands_off", "Verif.Aggregator.commands_only_change", "Verif.Aggregator.manual_off_not_corrected_violation", "Verif.Aggregator.stale_reading_violation", "Verif.Aggregator.repeated_command_violation"], "note": "Registration exact; last command as wanted after every pass (default mode); relay follows without manual switching; violations: manual switching not corrected, stale reading in the other mode, repeated commands."},
  {"property": "C41", "status": "partial", "theorems": ["Verif.Tools.uint_digits", "Verif.Tools.uint_round_trip", "Verif.Tools.uint_other", "Verif.Tools.int_digits", "Verif.Tools.int_round_trip_partial", "Verif.Tools.int_safe_partial", "Verif.Tools.float_text", "Verif.Tools.float_whole", "Verif.Tools.decimal_text", "Verif.Tools.int_round_trip_violation", "Verif.Tools.int_safe_violation", "Verif.Tools.float_fits_violation"], "note": "exact for everything that does not overflow; overflow is undefined behaviour (violations)"},
  {"property": "C42", "status": "partial", "theorems": ["Verif.Web.chunks_do_not_matter", "Verif.Web.fields_of_form", "Verif.Web.form_round_trip", "Verif.Web.receive_partial", "Verif.Web.receive_safe_violation"], "note": "chunk independence, bounds and round trip proved for the parser; the ESP-IDF receive loop is undefined on a receive error (violation)"},
  {"property": "C43", "status": "partial", "theorems": ["Verif.Channel.rate_limit", "Verif.Channel.every_update_sent_partial", "Verif.Channel.first_element_starves_the_rest", "Verif.Channel.starvation_violation", "Verif.Channel.pending_drains"], "note": "Starvation proved (violation) for loops faster than 50 ms with a busy first element; proved fair for passes more than 50 ms apart; rate limit proved for every schedule."},
  {"property": "C44", "status": "partial", "theorems": ["Verif.Channel.header_counts_partial", "Verif.Channel.message_safe_partial", "Verif.Channel.message_complete_partial", "Verif.Channel.refused_channel_displaces_violation", "Verif.Channel.message_null_violation"], "note": "Complete when every channel got a number; a refused channel displaces a proper one (violation); null dereference after number above the limit (violation)."},
  {"property": "C45", "status": "partial", "theorems": ["Verif.Channel.server_knows_partial", "Verif.Channel.second_protocol_loses_update_violation", "Verif.Channel.lost_update_stays_lost"], "note": "Proved with SUPLA as only protocol layer; with MQTT connected an update between registration message and answer is lost (violation)."},
  {"property": "C46", "status": "partial", "theorems": ["Verif.Channel.component_events", "Verif.Channel.change_events", "Verif.Channel.turn_events", "Verif.Channel.turn_off_while_on_violation", "Verif.Channel.turn_events_single_partial"], "note": "Component, colour, white and change events exact; common ON_TURN_OFF is raised while the light is on when white changes to colour (violation)."},
  {"property": "C47", "status": "partial", "theorems": ["Verif.Channel.percent_takes_effect", "Verif.Channel.flag_takes_effect", "Verif.Channel.setpoint_takes_effect", "Verif.Channel.hvac_off_violation", "Verif.Channel.switch_takes_effect_partial"], "note": "Percentage, flags and setpoints proved; setHvacIsOn(false) has no effect on a percentage output (violation)."},
  {"property": "C48", "status": "partial", "theorems": ["Verif.Ocr.photos_one_interval_apart_partial", "Verif.Ocr.photo_is_lit", "Verif.Ocr.retry_after_15s_partial", "Verif.Ocr.first_failure_waits_violation", "Verif.Ocr.early_failure_hammers_violation"], "note": "Photos one interval apart and lit for 3 s; retry 15 s after a failure when the previous photo was one interval earlier; violations for failures of the very first attempt."},
  {"property": "C49", "status": "partial", "theorems": ["Verif.Hvac.never_both_on", "Verif.Hvac.function_respected", "Verif.Hvac.always_off_between", "Verif.Hvac.minimum_times", "Verif.Hvac.off_obeyed", "Verif.Hvac.subfunction_change_violation", "Verif.Hvac.report_agrees_partial", "Verif.Hvac.percent_cooling_violation", "Verif.Hvac.percent_heat_cool_violation", "Verif.Hvac.mixed_outputs_violation"], "note": "Exclusivity, off step, function and minimum times are proved for all histories with a fixed function; the report for on/off outputs. False: minimum times across a subfunction change, report of percentage outputs."},
  {"property": "C50", "status": "partial", "theorems": ["Verif.Hvac.heating_is_two_point", "Verif.Hvac.cooling_is_two_point", "Verif.Hvac.heat_cool_is_three_state", "Verif.Hvac.dead_band", "Verif.Hvac.through_rest", "Verif.Hvac.stops_when_warm", "Verif.Hvac.starts_when_cold", "Verif.Hvac.mode_respected", "Verif.Hvac.off_means_off_partial", "Verif.Hvac.off_aux_sensor_violation", "Verif.Hvac.off_differential_violation", "Verif.Hvac.forced_off_partial", "Verif.Hvac.forced_off_violation", "Verif.Hvac.sensor_failure", "Verif.Hvac.frost_protection", "Verif.Hvac.overheat_lock", "Verif.Hvac.overheat_lock_violation", "Verif.Hvac.aux_wrong_mode_violation", "Verif.Hvac.differential_wrap_violation"], "note": "Two-point control, three-state control in HEAT_COOL mode, stop/start with minimum times, mode, sensor failure and frost protection are proved for all histories; OFF and forced off hold while thermometers work. False in the cases of the violation theorems."},
  {"property": "C51", "status": "partial", "theorems": ["Verif.Hvac.Schedule.slot_of_quarter", "Verif.Hvac.Schedule.set_slot", "Verif.Hvac.Schedule.reads_in_bounds_partial", "Verif.Hvac.Schedule.index_672_violation", "Verif.Hvac.Schedule.validation_partial", "Verif.Hvac.Schedule.validation_violation", "Verif.Hvac.Schedule.program_in_force", "Verif.Hvac.Schedule.valid_program_in_limits", "Verif.Hvac.Schedule.always_consistent_partial", "Verif.Hvac.Schedule.set_program_bounds_violation", "Verif.Hvac.Schedule.remove_used_program_violation"], "note": "Proved for all schedules, times and histories in which program numbers are 1..4 and no used program is removed; false otherwise (violation theorems)."},
  {"property": "C52", "status": "partial", "theorems": ["Verif.Hvac.Mode.set_points_in_limits_partial", "Verif.Hvac.Mode.default_outside_limits_violation", "Verif.Hvac.Mode.button_wrap_violation", "Verif.Hvac.Mode.gap_violation", "Verif.Hvac.Mode.fight_violation"], "note": "limits: proved for all histories when the built-in defaults are within the limits; the rest is false of the code"},
  {"property": "C53", "status": "partial", "theorems": ["Verif.Hvac.Mode.timer_returns", "Verif.Hvac.Mode.timer_returns_weekly", "Verif.Hvac.Mode.off_on", "Verif.Hvac.Mode.turn_on_diff_violation", "Verif.Hvac.Mode.timer_chain_violation", "Verif.Hvac.Mode.timer_weekly_violation", "Verif.Hvac.Mode.timer_override_violation", "Verif.Hvac.Mode.timer_too_long_violation"], "note": "proved for a timed off/heat/cool/heat-cool mode and for off/on; chains of timers, timed schedule and timed override are false of the code"},
  {"property": "C54", "status": "partial", "theorems": ["Verif.Hvac.Config.always_good", "Verif.Hvac.Config.refused", "Verif.Hvac.Config.readonly_fields", "Verif.Hvac.Config.readonly_temps_partial", "Verif.Hvac.Config.accepted_fields", "Verif.Hvac.Config.accepted_temps_partial", "Verif.Hvac.Config.readonly_temp_violation", "Verif.Hvac.Config.main_thermometer_violation", "Verif.Hvac.Config.own_master_violation"], "note": "invariant, refusal, read-only fields and application proved; read-only temperatures only where no repair applies; main thermometer and master are not validated by the code"},
  {"property": "C55", "status": "partial", "theorems": ["Verif.Srpc.attempts_paced", "Verif.Srpc.backoff", "Verif.Srpc.refusal_backoff", "Verif.Srpc.reconnects", "Verif.Srpc.ready_honest", "Verif.Srpc.silence_noticed", "Verif.Srpc.drop_has_reason", "Verif.Srpc.healthy_kept", "Verif.Srpc.restart_every_six", "Verif.Srpc.no_undefined_partial", "Verif.Srpc.true_means_ready_partial", "Verif.Srpc.version_error_violation", "Verif.Srpc.true_after_timeout_violation", "Verif.Srpc.timeout_256_violation", "Verif.Srpc.fail_time_violation"], "note": "Pacing, back-off, reconnecting, honesty, silence detection, keeping a healthy connection and network restart are proved for all histories. False parts, each with a witness: a wrong-version message frees the protocol object in use; the pass that gives up the server still reports connected; activity timeouts from 256 s on are cut to 8 bits; the reported time without connection stops at 655350 s."},
  {"property": "C56", "status": "partial", "theorems": ["Verif.Notify.send_safe", "Verif.Notify.delivers_partial", "Verif.Notify.long_title_violation", "Verif.Notify.long_body_violation", "Verif.Notify.registrations", "Verif.Notify.registrations_frozen", "Verif.Notify.send_result", "Verif.Notify.managed_fields_partial"], "note": "Memory safety, the result, registrations and freezing are proved in full. Delivery is proved for titles up to 100 and bodies up to 255 characters (Delivers is the full claim). It is false for longer texts: the size field is set from the uncut length, so the message is silently dropped and true is returned."},
  {"property": "C57", "status": "partial", "theorems": ["Verif.DevCfg.process_safe", "Verif.DevCfg.rejected_untouched", "Verif.DevCfg.local_change_kept", "Verif.DevCfg.consistent_accepted", "Verif.DevCfg.accepted_prefix_partial", "Verif.DevCfg.trailing_field_violation", "Verif.DevCfg.missing_field_violation", "Verif.DevCfg.taken_partial", "Verif.DevCfg.power_led_violation", "Verif.DevCfg.set_get_partial", "Verif.DevCfg.volume_default_violation", "Verif.DevCfg.get_set_partial", "Verif.DevCfg.settings_reported_partial", "Verif.DevCfg.led_stuck_violation", "Verif.DevCfg.two_contents_violation", "Verif.DevCfg.report_complete", "Verif.DevCfg.report_consistent_partial", "Verif.DevCfg.unknown_report_violation", "Verif.DevCfg.echo_harmless_partial", "Verif.DevCfg.volume_echo_violation"], "note": "Memory safety, all-or-nothing, acceptance of consistent messages, priority of local changes and completeness of the device's own message are proved in full. Effect is proved except for the power LED behind the delay type; set/get and echo for documented values with a volume stored. The full claims (AcceptedConsistent, TakesAll, SetGet, Changeable, ContentAvailable, ReportConsistent, EchoHarmless) are stated and refuted: the parser skips two bytes for the one-byte delay type, does not look at fields behind the last byte, stores any LED type and then refuses to change it, uses different volume defaults for reading and reporting."},
  {"property": "C58", "status": "partial", "theorems": ["Verif.DevCfg.never_lost_partial", "Verif.DevCfg.slow_answer_violation", "Verif.DevCfg.field_exchange_violation", "Verif.DevCfg.change_sent", "Verif.DevCfg.change_at_zero_violation", "Verif.DevCfg.ack_taken_partial", "Verif.DevCfg.ignored_ack_violation"], "note": "Sending of a change is proved for clock readings other than 0 (false there: change_at_zero_violation). Not losing a change is proved for a server that answers within a second and agrees on the fields; the full claim NeverLost is refuted by a slow answer and by an exchange about unequal fields. A server setting is taken when no exchange is open; the full claim AckTaken is refuted."},
  {"property": "C59", "status": "partial", "theorems": ["Verif.ChanCfg.never_lost_partial", "Verif.ChanCfg.late_answer_violation", "Verif.ChanCfg.disabled_violation", "Verif.ChanCfg.refused_ocr_violation", "Verif.ChanCfg.pending_sent", "Verif.ChanCfg.silent_before_finished", "Verif.ChanCfg.no_insisting_partial", "Verif.ChanCfg.insisting_violation", "Verif.ChanCfg.false_change_violation", "Verif.ChanCfg.server_wins_partial", "Verif.ChanCfg.converges_partial", "Verif.ChanCfg.crossing_violation", "Verif.ChanCfg.second_change_violation", "Verif.ChanCfg.gpm_faithful", "Verif.ChanCfg.gpm_converges_partial", "Verif.ChanCfg.gpm_insists_violation", "Verif.ChanCfg.therm_faithful", "Verif.ChanCfg.therm_rounding_violation", "Verif.ChanCfg.therm_moved", "Verif.ChanCfg.added_once_partial", "Verif.ChanCfg.added_twice_violation"], "note": "The full claims NeverLost, Converges, NoInsisting, ServerWins and AddedOnce are false (violations). Proved: nothing is lost with a server that answers before the next change; device and server agree at rest, through any disconnections and restarts, without crossing changes, for every faithful class; general purpose channels are faithful, thermometers for corrections in tenths within range."},
  {"property": "C60", "status": "partial", "theorems": ["Verif.Em.current_shown", "Verif.Em.current_announced", "Verif.Em.power_shown_partial", "Verif.Em.negative_power_violation", "Verif.Em.power_announced_partial", "Verif.Em.power_hidden_violation", "Verif.Em.power_defined_partial", "Verif.Em.power_overflow_violation", "Verif.Em.published_partial", "Verif.Em.jitter_violation", "Verif.Em.start_violation"], "note": "PowerShown, PowerAnnounced, PowerDefined and Published are false (violations). Proved: currents fully; powers down to -21474.836 kW for the server's reading; for MQTT only in the fine scale; each reading reaches the channel since a registration when the readings take equally long and less than 2^32 ms pass between two values."},
  {"property": "C61", "status": "partial", "theorems": ["Verif.ChanCfg.em_faithful", "Verif.ChanCfg.em_converges_partial", "Verif.ChanCfg.type_supported_partial", "Verif.ChanCfg.two_types_violation", "Verif.ChanCfg.load_ordered", "Verif.ChanCfg.load_idem", "Verif.ChanCfg.take_ordered", "Verif.ChanCfg.apart_violation"], "note": "TypeSupported and the distance of the thresholds are false (violations). Proved: agreement with the server at rest without crossing changes for well-formed messages; thresholds in range and in order always."},
  {"property": "C62", "status": "partial", "theorems": ["Verif.SimpleState.save_restart", "Verif.SimpleState.other_size_not_loaded", "Verif.SimpleState.confined", "Verif.SimpleState.power_loss_partial", "Verif.SimpleState.small_change_atomic_partial", "Verif.SimpleState.zero_checksum_violation", "Verif.SimpleState.collision_violation", "Verif.SimpleState.lost_violation", "Verif.SimpleState.growth_violation", "Verif.SimpleState.refused_forever", "Verif.SimpleState.torn_header_violation", "Verif.SimpleState.numbered_restart"], "note": "Restart, sizes, confinement and the order of elements are proved. The power-loss claim holds with the checksum as the judge: when the old checksum is not 0 and the change fits in 16 bits it is proved in full; otherwise a mixture with the checksum of the old state is loaded (two witnesses). The state is not kept through a power loss, a state that grows without a restart is lost, and a header of which only the tag was written disables the storage forever."},
  {"property": "C63", "status": "partial", "theorems": ["Verif.Trigger.announced", "Verif.Trigger.sent_iff", "Verif.Trigger.local_off", "Verif.Trigger.local_on", "Verif.Trigger.always_on", "Verif.Trigger.untouched", "Verif.Trigger.one_reaction", "Verif.Trigger.drained", "Verif.Trigger.push_sound", "Verif.Trigger.push_real", "Verif.Trigger.registered_empty", "Verif.Trigger.second_click_violation", "Verif.Trigger.always_twice_violation", "Verif.Trigger.null_handler_violation", "Verif.Trigger.enabled_again_violation", "Verif.Trigger.stuck_violation"], "note": "Everything is proved for every kind of button, every registration list and every history, with the negation where the code does not do it: an own click operation of the same element, an always-enabled press operation, a destroyed element, an operation disabled by the program, an unknown action with everything published."},
  {"property": "C64", "status": "partial", "theorems": ["Verif.Hostname.device_name_valid", "Verif.Hostname.device_name_defined", "Verif.Hostname.device_name_exact", "Verif.Hostname.hostname_valid", "Verif.Hostname.hostname_distinct", "Verif.Hostname.brace_violation", "Verif.Hostname.empty_violation", "Verif.Hostname.trailing_violation"], "note": "Definedness (Defined) is false for names with a character behind 'z' before the first letter or digit, and for names with nothing to show; proved otherwise. Without address digits the name may end with '-' (AlwaysHost refuted). For names of printable characters the result is exact."},
  {"property": "C65", "status": "partial", "theorems": ["Verif.Life.ok_run", "Verif.Life.remote_config_stays", "Verif.Life.remote_config_ends", "Verif.Life.button_config_stays", "Verif.Life.visited_config_stays", "Verif.Life.restart_in_time", "Verif.Life.restart_not_early_partial", "Verif.Life.restart_early_violation", "Verif.Life.no_reset_by_accident", "Verif.Life.reset_when_asked_partial", "Verif.Life.reset_lost_violation", "Verif.Life.no_early_connection_reset", "Verif.Life.connection_reset_partial", "Verif.Life.connection_reset_late_violation", "Verif.Life.unconfigured_waits", "Verif.Life.offline_mode_waits", "Verif.Life.offline_mode_begins", "Verif.Life.config_at_zero_violation", "Verif.Life.repeated_request_violation", "Verif.Life.offline_update_never_ends", "Verif.Life.offline_update_violation"], "note": "Restarts after a given time are exact for times up to five minutes (restart_not_early_partial); an explicit factory reset is proved when no other restart is due in the same pass (reset_when_asked_partial); the restart without connection counts passes, so its time depends on their distance (connection_reset_partial). The full claims are false of the code, see the violations."},
  {"property": "C66", "status": "partial", "theorems": ["Verif.Cycles.session_kind", "Verif.Cycles.stored_eq", "Verif.Cycles.enters_iff", "Verif.Cycles.not_power", "Verif.Cycles.disabled", "Verif.Cycles.unlucky_violation", "Verif.Cycles.zero_violation", "Verif.Cycles.software_restart_violation"], "note": "enters_iff is exact for histories of sessions that are instant, short, or long with the zero written; a loss of power in the second before the zero is written, and a pass at clock reading 0, break the claim (violations)."},
  {"property": "C67", "status": "partial", "theorems": ["Verif.Mqtt.foreign_ignored", "Verif.Mqtt.dispatch_iff_partial", "Verif.Mqtt.documented_reaches", "Verif.Mqtt.subscribed_reaches", "Verif.Mqtt.digits_exact", "Verif.Mqtt.dispatch_safe_partial", "Verif.Mqtt.names_channel_violation", "Verif.Mqtt.dispatch_long_violation", "Verif.Mqtt.dispatch_number_violation"], "note": "dispatch_iff_partial is exact for topics below 256 characters; documented_reaches and subscribed_reaches give the round trip. Longer topics, ten-digit numbers and texts that are no number break the full claims (violations)."},
  {"property": "C68", "status": "partial", "theorems": ["Verif.Mqtt.same_eq", "Verif.Mqtt.words_exact", "Verif.Mqtt.hvac_words_exact", "Verif.Mqtt.unknown_action_ignored", "Verif.Mqtt.other_part_ignored", "Verif.Mqtt.numbers_exact", "Verif.Mqtt.numbers_outside", "Verif.Mqtt.temperature_exact", "Verif.Mqtt.temperature_whole", "Verif.Mqtt.temperature_outside", "Verif.Mqtt.colour_exact", "Verif.Mqtt.end_to_end", "Verif.Mqtt.subscribed_understood_partial", "Verif.Mqtt.at_most_once_partial", "Verif.Mqtt.subscribed_understood_violation", "Verif.Mqtt.at_most_once_violation", "Verif.Mqtt.garbage_ignored_violation", "Verif.Mqtt.garbage_setpoint_violation", "Verif.Mqtt.set_on_violation"], "note": "Exact for all documented words, numbers, temperatures and colours of every channel type. The full claims fail for the action of a colour light, twice delivered dimmer actions, and payloads that are no number (violations)."},
  {"property": "C69", "status": "partial", "theorems": ["Verif.Mqtt.topic_length", "Verif.Mqtt.topic_exact", "Verif.Mqtt.slash_slash", "Verif.Mqtt.topic_distinct", "Verif.Mqtt.object_id_distinct_partial", "Verif.Mqtt.object_id_fits", "Verif.Mqtt.discovery_exact", "Verif.Mqtt.notify_partial", "Verif.Mqtt.pass_exact_partial", "Verif.Mqtt.topics_exact_violation", "Verif.Mqtt.object_id_distinct_violation", "Verif.Mqtt.notify_safe_violation", "Verif.Mqtt.pass_safe_violation"], "note": "Topics are exact and distinct for every prefix and name within the documented limits; identifiers differ below 100 channels; the change bits are exact below 64 channels. Beyond that the claims fail (violations)."},
  {"property": "C70", "status": "partial", "theorems": ["Verif.Calcfg.unauthorised_no_effect", "Verif.Calcfg.device_unauthorised", "Verif.Calcfg.only_one_violation", "Verif.Calcfg.device_exact", "Verif.Calcfg.device_other", "Verif.Calcfg.channel_exact", "Verif.Calcfg.effects_target", "Verif.Calcfg.set_time_violation", "Verif.Calcfg.set_time_partial", "Verif.Calcfg.reply_echo", "Verif.Calcfg.always_answered", "Verif.Calcfg.pending_exact", "Verif.Calcfg.late_answer_partial", "Verif.Calcfg.no_request_no_answer", "Verif.Calcfg.late_answered_violation", "Verif.Calcfg.late_noted_violation", "Verif.Calcfg.late_noted_partial", "Verif.Calcfg.everyone_answered_violation"], "note": "Proved for library elements: no effect without authorisation, exact effects of documented commands, targets, replies, refinement of the pending list. False parts proved as violations: authorisation values other than 1 accepted by channels, SET_TIME size check, late answers over 128 bytes, pending answers of subdevice owners, two requesters on one channel."},
  {"property": "C71", "status": "partial", "theorems": ["Verif.Timekeep.operating_time_partial", "Verif.Timekeep.never_more", "Verif.Timekeep.repeated_turn_on", "Verif.Timekeep.accurate_violation"], "note": "Two-sided bound over all histories with a loss term per switching while on; never more than true without reset, unconditionally. Full claim false: repeated switch-on below one second counts nothing. Saving and restoring of the counter: C111."},
  {"property": "C72", "status": "partial", "theorems": ["Verif.Timekeep.uptime_exact_partial", "Verif.Timekeep.uptime_violation", "Verif.Timekeep.first_cause", "Verif.Timekeep.cause_kept"], "note": "Exact over all histories with passes less than an hour apart; the first-cause rule over all histories. A pause of more than an hour is lost (violation)."},
  {"property": "C73", "status": "partial", "theorems": ["Verif.Timekeep.clock_exact_partial", "Verif.Timekeep.timers_exact", "Verif.Timekeep.clock_right_violation", "Verif.Timekeep.first_tick_error", "Verif.Timekeep.ready_set_violation", "Verif.Timekeep.off_never_asks", "Verif.Timekeep.asks_again_partial", "Verif.Timekeep.asked_apart_partial", "Verif.Timekeep.asks_rarely_violation"], "note": "Exact if the time arrives less than a second after the last counted second; the cadence of requests. False otherwise: the first setting is followed by a jump of the whole uptime (platforms where the library counts the seconds: AVR), ready although not set, reading 0 asks twice. mktime and the time zone are outside the model."},
  {"property": "C74", "status": "partial", "theorems": ["Verif.Conflict.unknown_found_partial", "Verif.Conflict.unknown_found_violation", "Verif.Conflict.long_report_violation", "Verif.Conflict.absent_found", "Verif.Conflict.type_found_partial", "Verif.Conflict.size_told_partial", "Verif.Conflict.size_told_violation"], "note": "Exact for reports up to 128 entries except when the length equals the greatest channel number (off by one, violation). Longer reports: false alarm and size 0 (violations)."},
  {"property": "C75", "status": "partial", "theorems": ["Verif.Led.shown_init", "Verif.Led.shown_run", "Verif.Led.steady", "Verif.Led.blink_phases", "Verif.Led.limited", "Verif.Led.custom_off_violation", "Verif.Led.custom_stuck", "Verif.Led.invert_shown_violation"], "note": "Tracking, steady settings, phase lengths, exact count and end of limited sequences over all tick histories. False: a custom steady-off sequence leaves a lit LED lit; a change of inversion is not shown."},
  {"property": "C76", "status": "partial", "theorems": ["Verif.Led.priority", "Verif.Led.auto_exact", "Verif.Led.always_off", "Verif.Led.always_off_shows", "Verif.Led.config_only", "Verif.Led.identify_then_status", "Verif.Led.auto_rate_violation", "Verif.Led.mode_kept", "Verif.Led.page_sets", "Verif.Led.server_sets_partial", "Verif.Led.config_only_kept", "Verif.Led.default_shown_partial", "Verif.Led.default_config_only_violation"], "note": "Exact durations per condition, priority over all protocol lists, always-off and configuration-only, identify. The mode over histories of boots, server, web page and local choices: a restart keeps it, the page always sets it, the server sets it while the stored number is 0..2. False: limits of an unlimited custom sequence stay after return to automatic mode; the default 'configuration mode only' is not honoured and locks the setting for the server."},
  {"property": "C77", "status": "partial", "theorems": ["Verif.Html.escaped_reads_back", "Verif.Html.escaped_is_inert", "Verif.Html.structure_fixed_partial", "Verif.Html.structure_fixed_violation", "Verif.Html.name_shown_violation", "Verif.Html.passwords_not_shown"], "note": "Texts that go through the escaping read back and are inert; the structure of the page is fixed if the two texts that are put in raw (network name, update address) have no markup in them; false without that, with witnesses. Modelled: Wi-Fi, protocol and update elements of the page."},
  {"property": "C78", "status": "partial", "theorems": ["Verif.Html.page_shows_settings_partial", "Verif.Html.fill_in", "Verif.Html.open_and_save_partial", "Verif.Html.open_and_save_violation", "Verif.Html.certificate_stored_violation", "Verif.Html.ca_cut", "Verif.Html.limits_hold", "Verif.Html.port_valid_violation"], "note": "End to end through page, browser specification, form encoding, chunked parser and handlers. Proved if the raw texts have no quote or ampersand and the certificate fits its buffer; false without, with witnesses; 65536 is taken for a port. Other page elements (channel parameters) are not modelled."},
  {"property": "C79", "status": "partial", "theorems": ["Verif.Registry.list_exact", "Verif.Registry.intfs_exact_violation", "Verif.Registry.intfs_exact_partial"], "note": "Any history for all lists but network interfaces. For interfaces the claim is false: the destructor does not unlink the second interface; proved when the second is never destroyed."},
  {"property": "C80", "status": "partial", "theorems": ["Verif.Registry.round_robin", "Verif.Registry.everyone_gets_a_turn", "Verif.Registry.never_starved_violation"], "note": "Round robin from any reachable state while no element is destroyed, so everyone is called within as many turns as there are elements. With destructions the full claim is false."},
  {"property": "C81", "status": "proved", "theorems": ["Verif.Net.best_is_used", "Verif.Net.usable_is_used", "Verif.Net.choice_stable", "Verif.Net.ready_iff", "Verif.Net.asked_once", "Verif.Net.config_mode_has_wifi"], "note": ""},
  {"property": "C82", "status": "partial", "theorems": ["Verif.Net.complete_exact_violation", "Verif.Net.answer_stable_violation", "Verif.Net.complete_exact_partial"], "note": "Exact from the second look on. At the first look it is false: the interface chosen before the settings were loaded is judged."},
  {"property": "C83", "status": "partial", "theorems": ["Verif.LastState.newest_first", "Verif.LastState.reads_safely_violation", "Verif.LastState.lock_balanced_violation", "Verif.LastState.reads_safely_partial", "Verif.LastState.config_is_final", "Verif.LastState.logged_once"], "note": "Contents and order for all histories. Reading safely is false when the log is full (one byte behind it is read) or empty (a lock not taken is released); proved for all other logs."},
  {"property": "C84", "status": "partial", "theorems": ["Verif.Bistable.pulse_lasts", "Verif.Bistable.pulse_ends", "Verif.Bistable.sound_run", "Verif.Bistable.obeys", "Verif.Bistable.last_command_wins_violation", "Verif.Bistable.last_command_wins_partial", "Verif.Bistable.limit_used", "Verif.Bistable.limit_used_violation", "Verif.Bistable.timer_ends_violation", "Verif.Bistable.timer_ends_partial", "Verif.Bistable.restart_keeps_limit_violation"], "note": "Pulses and obedience between pulses for all histories. False: commands during a pulse, limits over 2^31 ms, changes by hand during a limit, restart with a limit; proved without those."},
  {"property": "C85", "status": "proved", "theorems": ["Verif.Sha256.digest_is_sha256", "Verif.Sha256.compress_eq", "Verif.Sha256.update_holds"], "note": "Refinement of nettle's unrolled, circular-buffer compression and streaming code to the standard; digest lengths above 32 stop the program (assert) and are excluded"},
  {"property": "C86", "status": "proved", "theorems": ["Verif.Rsa.accepts_iff_valid", "Verif.Rsa.powm_eq", "Verif.Rsa.encoded", "Verif.Rsa.hash_is_reset"], "note": "Big numbers are natural numbers here; the limb-level arithmetic below them is C89, where the verdict of the limb code is proved equal to this one (Gmp.answer_eq) wherever unsigned is wider than half a limb"},
  {"property": "C87", "status": "proved", "theorems": ["Verif.Ota.only_signed_starts", "Verif.Ota.signed_installs", "Verif.Ota.verify_sound"], "note": "Down to the SHA-256 and RSA code of C85 and C86; the platform (HTTP client, JSON parser, flash) may answer anything"},
  {"property": "C88", "status": "partial", "theorems": ["Verif.Ota.query_exact", "Verif.Ota.query_made_violation", "Verif.Ota.query_made_partial", "Verif.Ota.answer_obeyed_violation", "Verif.Ota.answer_obeyed_partial", "Verif.Ota.never_undefined_violation", "Verif.Ota.no_client_violation", "Verif.Ota.never_undefined_partial", "Verif.Ota.nothing_leaks_violation"], "note": "The query is complete whenever sent; four parts are false of the code: a device with an empty name or version never asks, an answer in two pieces is read as its last piece, an empty answer (or a client that could not be created) is undefined behaviour, the parsed answer leaks when there is no update; proved for non-empty fields and answers in one piece"},
  {"property": "C89", "status": "partial", "theorems": ["Verif.Gmp.check_is_exact_partial", "Verif.Gmp.esp_check_is_exact", "Verif.Gmp.host_check_violation", "Verif.Gmp.powm_is_power", "Verif.Gmp.inverse_is_exact", "Verif.Gmp.inverse_violation", "Verif.Gmp.step_is_exact"], "note": "check_is_exact_partial proves CheckIsExact for every platform where unsigned is wider than half a limb (ESP targets); host_check_violation refutes it for 64-bit limbs with a 32-bit unsigned."},
  {"property": "C90", "status": "partial", "theorems": ["Verif.Message.received_message", "Verif.Message.received_defined", "Verif.Message.only_messages_have_effects", "Verif.Message.octets_injective", "Verif.Message.general_message", "Verif.Message.new_value", "Verif.Message.group_value", "Verif.Message.config_result", "Verif.Message.config_change", "Verif.Message.config_answers", "Verif.Message.state_request", "Verif.Message.unknown_channel", "Verif.Message.answer_names_kind_violation", "Verif.Message.answer_names_kind_partial", "Verif.Message.every_channel_reached_violation", "Verif.Message.every_channel_reached_partial"], "note": "All 17 messages: decoding, delivery, answers, injectivity, no undefined behaviour for any packet. False parts: the answer to a changed configuration never names the kind of configuration (AnswerNamesKind), and messages for an element's second channel are not delivered (EveryChannelReached); both have the restricted theorem."},
  {"property": "C91", "status": "partial", "theorems": ["Verif.Pv.answer_read", "Verif.Pv.answers_read", "Verif.Pv.answer_after_cut", "Verif.Pv.undefined_only_without_word", "Verif.Pv.never_undefined_violation", "Verif.Pv.cut_is_harmless_violation", "Verif.Pv.cut_is_harmless_partial", "Verif.Pv.row_read", "Verif.Pv.idle_row_read", "Verif.Pv.header_read", "Verif.Pv.empty_fields_read_violation", "Verif.Pv.columns_kept_violation", "Verif.Pv.query_complete_partial", "Verif.Pv.query_fits_violation", "Verif.Pv.password_never_ends", "Verif.Pv.password_sent_violation", "Verif.Pv.variable_read", "Verif.Pv.script_defined_violation", "Verif.Pv.script_defined_partial"], "note": "Forward theorems for the three formats; false parts (each with a witness and a restricted theorem): answers with a line without a word are undefined behaviour (NeverUndefined, ScriptDefined), a cut answer disturbs the next (CutIsHarmless), empty CSV fields (EmptyFieldsRead, ColumnsKept), long identifiers cut the request (QueryFits), Afore password is never terminated (PasswordSent). Numeric conversion (atof) and timing are not modelled."},
  {"property": "C92", "status": "partial", "theorems": ["Verif.Gpm.calculated_accurate", "Verif.Gpm.calculated_nan", "Verif.Gpm.formatted_text", "Verif.Gpm.interval_configured", "Verif.Gpm.value_recent", "Verif.Gpm.reads_apart", "Verif.Gpm.count_exact", "Verif.Gpm.reset_value", "Verif.Gpm.set_value", "Verif.Gpm.restart_value", "Verif.Gpm.new_meter_stays_unknown", "Verif.Gpm.counts_from_new_violation", "Verif.Gpm.counts_from_new_partial", "Verif.Gpm.remote_reset", "Verif.Gpm.reset_only_if_supported_violation"], "note": "Formula (to 2^-50 of its terms), text, interval, freshness across clock wraps, counting, reset and restart are proved for all histories. False: a new meter never counts until it is reset, because its memory variable starts as NaN (CountsFromNew); a meter declared without reset support is reset all the same (ResetOnlyIfSupported). Configuration exchange is C59."},
  {"property": "C93", "status": "partial", "theorems": ["Verif.Group.toggle_group", "Verif.Group.toggle_twice", "Verif.Group.iterate_sync_violation", "Verif.Group.iterate_sync_partial", "Verif.Group.handle_untouched", "Verif.Group.run_untouched", "Verif.Group.add_bound", "Verif.Group.load_known"], "note": "Toggling, restoring and confinement are proved over all histories. Holding (IterateSync) is false for a group whose first light is a dimmer with the default setting: the others are switched off (iterate_sync_violation); proved for all other groups."},
  {"property": "C94", "status": "partial", "theorems": ["Verif.Tls.only_trusted_violation", "Verif.Tls.only_trusted_partial", "Verif.Tls.trusted_accepted", "Verif.Tls.given_before_violation", "Verif.Tls.encrypted_violation", "Verif.Tls.encrypted_partial", "Verif.Tls.port_partial", "Verif.Tls.host_kept_violation", "Verif.Tls.host_kept_partial", "Verif.Tls.host_corrected", "Verif.Tls.host_public"], "note": "Without stored settings and without certificates the connection is encrypted but every server is accepted (only_trusted_violation); a client handed over before begin() never gets the chosen certificate (given_before_violation); a stored port 65536 counts as a port: no encryption and port 0 (encrypted_violation); names longer than 64 characters are cut (host_kept_violation). Everything else is proved. The TLS libraries are a relation 'signed by'; the Linux client, which does not load the chosen certificate, is not modelled."},
  {"property": "C95", "status": "partial", "theorems": ["Verif.Condition.power_value", "Verif.Condition.current_value", "Verif.Condition.no_phase", "Verif.Condition.withdrawn", "Verif.Condition.never_measured", "Verif.Condition.only_measured_violation", "Verif.Condition.total_current", "Verif.Condition.total_power_violation", "Verif.Condition.total_power_partial", "Verif.Condition.meter_edges", "Verif.Condition.compares_newest_violation", "Verif.Condition.compares_newest_partial"], "note": "The total power overflows (undefined) from about 7.16 kW per phase (total_power_violation); a power withdrawn comes back as zero with the next reading of any other quantity (only_measured_violation); the value compared may be the previous one when a reading is faster than the one before (compares_newest_violation). The rest is proved."},
  {"property": "C96", "status": "partial", "theorems": ["Verif.Pulse.one_button", "Verif.Pulse.released_after", "Verif.Pulse.released_in_time", "Verif.Pulse.apart_violation", "Verif.Pulse.apart_partial", "Verif.Pulse.follows_three", "Verif.Pulse.follows_two_violation", "Verif.Pulse.follows_two_partial", "Verif.Pulse.follows_settled", "Verif.Pulse.rests_violation", "Verif.Pulse.restart_violation", "Verif.Pulse.reversible_violation"], "note": "One button at a time, the length of presses and their release are proved for all histories; with three buttons the drive always follows. The rest is false of the code: with two buttons a calibration asked for while the shutter moves sends a second press, which stops the drive (follows_two_violation) and ends with the drive moving while the device says it is still and open (rests_violation); the same after a restart in mid movement (restart_violation); the upside-down motor setting is ignored (reversible_violation); the gap between presses is lost at the millisecond at which the 32-bit clock reads 0 (apart_violation). The drive is proved to follow if no calibration begins during a movement, and in terms of operations if nothing asks for a calibration."},
  {"property": "C97", "status": "partial", "theorems": ["Verif.Form.correction_untouched", "Verif.Form.button_untouched", "Verif.Form.delay_untouched", "Verif.Form.volume_untouched", "Verif.Form.select_untouched", "Verif.Form.custom_untouched_partial", "Verif.Form.custom_untouched_violation", "Verif.Form.led_untouched_partial", "Verif.Form.led_untouched_violation", "Verif.Form.screen_untouched_partial", "Verif.Form.screen_untouched_violation", "Verif.Form.local_untouched_partial", "Verif.Form.local_untouched_violation", "Verif.Form.phase_untouched_partial", "Verif.Form.phase_untouched_violation", "Verif.Form.blind_untouched_partial", "Verif.Form.margin_disabled", "Verif.Form.calibration_lost", "Verif.Form.blind_untouched_violation", "Verif.Form.thermo_untouched_partial", "Verif.Form.master_violation", "Verif.Form.pump_violation", "Verif.Form.setpoint_violation", "Verif.Form.timer_violation", "Verif.Form.override_violation", "Verif.Form.hysteresis_violation", "Verif.Form.onError_violation"], "note": "Proved for all stored values for corrections, button times, screen delay, volume and choices by name; for the other elements on the stated conditions, each of which is shown to be needed by a _violation (in particular: a thermostat without a master, pump or source gets channel 0 as one if channel 0 is offered; a default shutter margin becomes 0; timers and manual overrides of thermostats are cancelled)."},
  {"property": "C98", "status": "partial", "theorems": ["Verif.Drop.run_holds", "Verif.Drop.opens_iff", "Verif.Drop.only_drops_partial", "Verif.Drop.missing_opens", "Verif.Drop.missing_violation", "Verif.Drop.never_without", "Verif.Drop.half_an_hour_partial", "Verif.Drop.stuck_violation", "Verif.Drop.stuck_stays", "Verif.Drop.drop_reported", "Verif.Drop.ends_only", "Verif.Drop.warm_again"], "note": "The ring of measurements is proved to be the list of readings (run_holds), for all histories and wraps. opens_iff says exactly when a report begins; drop_reported, ends_only, warm_again, never_without hold (for passes that do not meet clock reading 0). Two claims are false: a lost thermometer is reported as an open window (missing_opens, missing_violation), and a drop noticed when the wrapped clock reads 0 is never taken back (stuck_violation, stuck_stays)."},
  {"property": "C99", "status": "partial", "theorems": ["Verif.Binary.follows", "Verif.Binary.steady", "Verif.Binary.inversion", "Verif.Binary.restart", "Verif.Binary.events_tell_partial", "Verif.Binary.events_tell_plain", "Verif.Binary.inversion_silent", "Verif.Binary.inversion_violation", "Verif.Binary.boot_violation"], "note": "Reporting (follows, steady) and the inversion (inversion, restart) hold for all histories. Events tell the state while the server leaves the inversion alone; the full claim EventsTell is false: a new inversion runs no event (inversion_silent, inversion_violation), and an inverted sensor that is on at start-up runs none either (boot_violation). The delay of two seconds before the setting is in flash is covered by C112."},
  {"property": "C100", "status": "partial", "theorems": ["Verif.Probe.k_exact", "Verif.Probe.absent_violation", "Verif.Probe.absent_both", "Verif.Probe.both_31855_partial", "Verif.Probe.sixteenfold_half", "Verif.Probe.sixteenfold_violation", "Verif.Probe.both_6675_partial", "Verif.Probe.zero_violation", "Verif.Probe.take_held", "Verif.Probe.keep_held", "Verif.Probe.light_held", "Verif.Probe.lux_held", "Verif.Probe.failing_reported", "Verif.Probe.dallas_partial", "Verif.Probe.dallas_violation", "Verif.Probe.light_partial", "Verif.Probe.dark_violation", "Verif.Probe.dark", "Verif.Probe.si_exact", "Verif.Probe.si_one_bit", "Verif.Probe.si_short", "Verif.Probe.bme_partial", "Verif.Probe.bme_violation", "Verif.Probe.pressure_partial", "Verif.Probe.pressure_violation", "Verif.Probe.aht_partial", "Verif.Probe.aht_stale", "Verif.Probe.aht_violation", "Verif.Probe.pressure_read"], "note": "Exact decoding and failure handling for all words and histories. The full claims are false: a thermocouple 16 times as warm as its chip is reported at half (sixteenfold_violation), 0 degrees of a MAX6675 is not available (zero_violation), a missing MAX6675 with the line low is 0 degrees (absent_violation), 85 degrees of a DS18B20 is a failure (dallas_violation), darkness is a failure of a light sensor (dark_violation), a BME280 may give NaN (bme_violation) and a pressure for a missing reading (pressure_violation), an AHT keeps a stale value for ever (aht_violation)."},
  {"property": "C101", "status": "partial", "theorems": ["Verif.Probe.Distance.mean_robust", "Verif.Probe.Distance.run_holds", "Verif.Probe.Distance.robust", "Verif.Probe.Distance.outlier", "Verif.Probe.Distance.reported_mono", "Verif.Probe.Distance.within", "Verif.Probe.Distance.defined_partial", "Verif.Probe.Distance.defined_violation", "Verif.Probe.Distance.ends", "Verif.Probe.Distance.plain", "Verif.Probe.Distance.failing_partial", "Verif.Probe.Distance.working", "Verif.Probe.Distance.wrap_reports", "Verif.Probe.Distance.wrap_violation", "Verif.Probe.Distance.signed_wrap", "Verif.Probe.Distance.never_violation", "Verif.Probe.Distance.told_partial", "Verif.Probe.Distance.told_violation"], "note": "outlier, within, ends, plain hold for all histories and ranges that are not empty. The full claims are false: an empty range divides by zero (defined_violation), the count of failures is a char so a broken sensor is reported with its old distance again (wrap_violation, signed_wrap), a sensor that is not there is reported as the nearest distance at start (never_violation), one metre below zero is sent as not available (told_violation)."},
  {"property": "C102", "status": "partial", "theorems": ["Verif.Form.denotes_read", "Verif.Form.correction_typed", "Verif.Form.button_typed", "Verif.Form.delay_typed", "Verif.Form.volume_typed", "Verif.Form.delay_limits", "Verif.Form.volume_limits", "Verif.Form.custom_typed", "Verif.Form.bright_typed", "Verif.Form.adjust_typed", "Verif.Form.local_typed", "Verif.Form.phase_typed", "Verif.Form.times_typed", "Verif.Form.margin_partial", "Verif.Form.margin_default", "Verif.Form.margin_violation", "Verif.Form.margin_beyond", "Verif.Form.temp_partial", "Verif.Form.temp_wraps", "Verif.Form.temp_violation"], "note": "Exact for all fields and all texts that denote a number, within the limits; corrections and button times outside are refused, delay, volume, brightness and local temperatures are limited. False in two places: the time margin of a roller shutter takes -1 as 0 and 300 as 44 (margin_violation, margin_default, margin_beyond), and a thermostat takes 676.8 degrees as 21.44 (temp_wraps, temp_violation). Thermostat fields are stated for the form's draft; how the draft is taken over is C97, C48."},
  {"property": "C103", "status": "partial", "theorems": ["Verif.PinOut.commands", "Verif.PinOut.boot", "Verif.PinOut.timed_on", "Verif.PinOut.timed_off", "Verif.PinOut.untimed", "Verif.PinOut.obeys_partial", "Verif.PinOut.default_violation", "Verif.PinOut.action_violation", "Verif.PinOut.duration_violation"], "note": "Switching, start-up and timers hold for all states, times and durations with duration plus the longest gap between passes below 2^32 ms. Thermostat requests are obeyed by an output that is off by default, has no duration and is operated by nothing else (obeys_partial); the full claim Obeys is false: an output on by default stays on when asked off (default_violation), after an action or the end of a duration asking again does nothing (action_violation, duration_violation)."},
  {"property": "C104", "status": "partial", "theorems": ["Verif.Somfy.understood", "Verif.Somfy.fresh", "Verif.Somfy.rolls_partial", "Verif.Somfy.rolls_violation", "Verif.Somfy.goes_back"], "note": "Frames are understood by an independent receiver for all inputs, and codes are fresh. The code goes up by one only on a big-endian processor (rolls_partial); on a little-endian one, as all that are supported, it goes up by 256 and back at every 256th button (rolls_violation, goes_back). The receiver is written from the protocol description named in the source, which is not in the repository. A failed allocation is not modelled."},
  {"property": "C105", "status": "partial", "theorems": ["Verif.Ftest.only_good", "Verif.Ftest.good_passes", "Verif.Ftest.late", "Verif.Ftest.failure_partial", "Verif.Ftest.failure_violation", "Verif.Ftest.stuck"], "note": "Released only if good, good ones released, lateness and failure end in a restart: proved for all histories. Missing: a failure between the button and the next pass ends nothing, ever (failure_violation, stuck)."},
  {"property": "C106", "status": "partial", "theorems": ["Verif.Parsed.shown_was_there", "Verif.Parsed.always_partial", "Verif.Parsed.always_violation", "Verif.Parsed.gone", "Verif.Parsed.counter_partial", "Verif.Parsed.counter_violation", "Verif.Parsed.voltage_violation", "Verif.Parsed.energy_violation", "Verif.Parsed.meter_partial", "Verif.Parsed.line_partial", "Verif.Parsed.line_violation", "Verif.Parsed.topics_partial", "Verif.Parsed.topics_violation", "Verif.Parsed.topics_shift"], "note": "Freshness and origin of every number shown: proved for all histories. Missing: a missing key of one sensor hides the others (always_violation), counters and energies fall to 0 (counter_violation, energy_violation), old voltages return (voltage_violation), numbers of 2^31 or more are undefined (line_violation), topics without message shift the others (topics_violation)."},
  {"property": "C107", "status": "partial", "theorems": ["Verif.Parsed.State.state_partial", "Verif.Parsed.State.state_violation", "Verif.Parsed.State.minus_one_online", "Verif.Parsed.State.means_total", "Verif.Parsed.State.lost", "Verif.Parsed.State.actions", "Verif.Parsed.State.values_violation", "Verif.Parsed.State.values_never", "Verif.Parsed.State.values_partial", "Verif.Parsed.State.reported_violation", "Verif.Parsed.State.reported_partial"], "note": "States and actions of states: proved for all histories. Missing: the value -1 (state_violation), actions of values other than -1, 0, 1 (values_violation, values_never), relays without source (reported_violation)."},
  {"property": "C108", "status": "partial", "theorems": ["Verif.Parsed.File.expired_partial", "Verif.Parsed.File.expired_violation", "Verif.Parsed.File.forgets", "Verif.Parsed.File.kept", "Verif.Parsed.File.read_back", "Verif.Parsed.File.atomic_violation", "Verif.Parsed.File.retried_violation", "Verif.Parsed.File.bounded_violation", "Verif.Parsed.File.bounded_partial"], "note": "Files that are there, files that are gone, data after a commit: proved for all histories. Missing: expired files that are deleted are given again (expired_violation), power failures lose the file (atomic_violation), refused writes are forgotten (retried_violation), writes beyond the size are undefined (bounded_violation)."},
  {"property": "C109", "status": "partial", "theorems": ["Verif.LittleFs.read_back", "Verif.LittleFs.others_kept", "Verif.LittleFs.latest_partial", "Verif.LittleFs.latest_violation", "Verif.LittleFs.whole_partial", "Verif.LittleFs.whole_violation", "Verif.LittleFs.size_partial", "Verif.LittleFs.size_violation", "Verif.LittleFs.erase_violation", "Verif.LittleFs.erase_keeps_long", "Verif.LittleFs.reset_all", "Verif.LittleFs.durable", "Verif.LittleFs.ca_read_back", "Verif.LittleFs.ca_violation", "Verif.LittleFs.ca_bounded"], "note": "Read back, other keys, factory reset, durability and certificate below the buffer size: proved for every state. Missing, each refuted by a witness: a key whose value changes between short and long, a read of a larger size, the size of short values, erasing of long values, a certificate of exactly the buffer size."},
  {"property": "C110", "status": "partial", "theorems": ["Verif.Ieee.there_and_back", "Verif.Ieee.normal_partial", "Verif.Ieee.change_seen", "Verif.Ieee.zero_violation", "Verif.Ieee.zero_never", "Verif.Ieee.nan_never", "Verif.Ieee.same_violation", "Verif.Ieee.read_violation"], "note": "Reading back, distinctness and normal numbers up to one unit in the last place: proved for all readings and stack contents. Missing, each refuted: 0, not-a-number, equal bytes for equal readings, and reading 64-bit zeros."},
  {"property": "C111", "status": "partial", "theorems": ["Verif.Timekeep.life_never_more", "Verif.Timekeep.life_restored", "Verif.Timekeep.request_exact", "Verif.Timekeep.reset_saved_partial", "Verif.Timekeep.reset_stays_violation"], "note": "Never more than true over all restarts, exact restoration of the latest save, exact effect of requests. False: an acknowledged reset is lost when power fails before the next save; with a save it stays."},
  {"property": "C112", "status": "partial", "theorems": ["Verif.Save.saved_in_time", "Verif.Save.disk_was_set", "Verif.Save.writes_paced", "Verif.Save.on_request_violation", "Verif.Save.zero_delay_violation"], "note": "saved_in_time, disk_was_set and writes_paced hold for all histories. The full claim OnRequest (a request is carried out after its own delay) is false: a shorter delay waits for a longer one that is pending, and a delay of 0 is never carried out. commit is taken to succeed."},
  {"property": "C113", "status": "partial", "theorems": ["Verif.Pwm.own_pins_partial", "Verif.Pwm.rgbw_expander_violation", "Verif.Pwm.channels_violation", "Verif.Pwm.duty_close_partial", "Verif.Pwm.mix_close", "Verif.Pwm.duty_mono", "Verif.Pwm.on_is_on_partial", "Verif.Pwm.full_is_full_partial", "Verif.Pwm.duty_violation"], "note": "Pins and duties for all lists of lights and all values. False: RGBWLeds on an expander writes to wrong outputs on an ESP32 with core 2.x and takes native pins on every board; the 17th PWM output stays dark; on AVR values 1-4 are dark and with an expander the duty is a quarter; on an ESP8266 the highest value is 1023/1024."},
  {"property": "C114", "status": "partial", "theorems": ["Verif.Shutter.shown_is_true_partial", "Verif.Shutter.sent_is_there_partial", "Verif.Shutter.down_puts_right", "Verif.Shutter.up_puts_right", "Verif.Shutter.shown_drifts_violation", "Verif.Shutter.open_ignored_violation", "Verif.Shutter.posUp_close", "Verif.Shutter.posDown_close"], "note": "The error is bounded for each movement since shutter and device last agreed on an end position; without that bound it is not: a hundred short touches close a shutter that is shown as open, and the command to open then does nothing."},
  {"property": "C115", "status": "partial", "theorems": ["Verif.Pzem.read_shown_partial", "Verif.Pzem.exact_shown", "Verif.Pzem.all_shown_partial", "Verif.Pzem.reactive_violation", "Verif.Pzem.broken_reading_violation"], "note": "All four drivers, any history, any float rounding: voltage, current, active and apparent power, energy, power factor and frequency right, silent phases zero with their energy kept, no measurement when nobody answers. Reactive power (exact arithmetic) right for PzemV3 and three_phase_PzemV3_ADDR. Missing: three_phase_PzemV3 and PzemV2 show a tenth of the reactive power (violation); a reading whose current arrives and whose voltage does not is converted from NaN or -1 to unsigned, undefined (violation)."},
  {"property": "C116", "status": "partial", "theorems": ["Verif.Ds.one_channel_per_probe", "Verif.Ds.measured_shown", "Verif.Ds.current_partial", "Verif.Ds.stale_violation", "Verif.Ds.own_probe_partial", "Verif.Ds.other_probe_violation", "Verif.Ds.served_partial", "Verif.Ds.crc_zero_violation", "Verif.Ds.reset_partial", "Verif.Ds.reset_missing_violation", "Verif.Ds.defined_partial", "Verif.Ds.sixteen_violation"], "note": "No probe on two channels: proved for all histories. A reading reaches the channel of its probe (measured_shown); value right while fewer than 128 readings fail in a row, violation with 128 (int8 counter wraps, the old temperature is shown again); only the own probe's temperatures as long as nothing is reset, violation after a reset; free probes get free channels unless their CRC byte is 0 (violation); Reset assignement works for probes found since the start (violation otherwise); defined for up to 15 probes (violation with 16)."},
  {"property": "C117", "status": "partial", "theorems": ["Verif.AcDc.follows_partial", "Verif.AcDc.ac_on", "Verif.AcDc.off_only_after_timeout", "Verif.AcDc.high_at_start_violation", "Verif.AcDc.clock_zero_violation"], "note": "A steady level is shown after the timeout if it was low at the start or changed since (follows_partial), under regular timer calls; alternating voltage is on and stays on (ac_on); off only after the timeout (off_only_after_timeout). Violated: a level that is high when the device starts is never shown; an interrupt handled when the clock is just 0 leaves the state undecided."},
  {"property": "C118", "status": "partial", "theorems": ["Verif.Sht.success_shown_partial", "Verif.Sht.success_any_order", "Verif.Sht.in_range", "Verif.Sht.temp_mono", "Verif.Sht.no_answer_violation", "Verif.Sht.no_data_violation", "Verif.Sht.removed_violation", "Verif.Sht.crc_ignored_violation", "Verif.Sht.humidity_late_violation"], "note": "Successful readings show the data sheet values (success_shown_partial; either order success_any_order), always in range (in_range), monotone (temp_mono). Violated: a failed reading shows -45 C and 0 % (SHT40 always, SHT30 on failed reception), a removed SHT30 keeps its last values for ever, wrong checksums are accepted, and humidity is one reading late if getHumi is evaluated first."},
  {"property": "C119", "status": "partial", "theorems": ["Verif.Answer.photo_answer_partial", "Verif.Answer.photo_success", "Verif.Answer.photo_text_last", "Verif.Answer.photo_pieces_violation", "Verif.Answer.photo_long_violation", "Verif.Answer.status_answer_partial", "Verif.Answer.status_failure", "Verif.Answer.status_in_buffer", "Verif.Answer.status_unterminated_violation", "Verif.Answer.status_chunked_violation", "Verif.Answer.status_gap_violation"], "note": "Photo: an answer in one piece is given as sent (photo_answer_partial), success iff complete and 200-202 (photo_success), never outside the buffer (photo_text_last). Status: an answer shorter than the buffer is given as sent in any number of pieces (status_answer_partial), no success without transfer (status_failure), buffer never overrun (status_in_buffer). Violated: of a photo answer in several pieces only the last is kept; a status answer of exactly the buffer size is not terminated; a chunked answer is a success with empty text; a piece that does not fit is left out and a later one appended."},
  {"property": "C120", "status": "partial", "theorems": ["Verif.Scale.weighs_partial", "Verif.Scale.decimal_near", "Verif.Scale.shows", "Verif.Scale.abnormal_shown", "Verif.Scale.calibrate_needs_tare", "Verif.Scale.calibrate_once", "Verif.Scale.saved_kept", "Verif.Scale.reversed_cell_violation", "Verif.Scale.calibrate_empty_violation", "Verif.Scale.minus_one_violation", "Verif.Scale.zero_at_start_violation"], "note": "Weight shown after tare and calibration, and after a restart if the mass raises the reading (weighs_partial); display within 0.1 (decimal_near); not available with abnormal sampling (abnormal_shown); calibration needs a tare, once (calibrate_needs_tare, calibrate_once); saved values kept (saved_kept). Violated: a negative calibration factor is lost at restart; calibrating with the tared load makes the next display undefined; weights in (-1.1,-1] are shown as not available; 0 is shown before the first sample."},
  {"property": "C121", "status": "partial", "theorems": ["Verif.LinClient.reaches_partial", "Verif.LinClient.connect_sound", "Verif.LinClient.never_null", "Verif.LinClient.closed_noticed", "Verif.LinClient.idle_kept_partial", "Verif.LinClient.write_reported_partial", "Verif.LinClient.stream_partial", "Verif.LinClient.mixed_family_violation", "Verif.LinClient.plain_idle_violation", "Verif.LinClient.plain_write_violation", "Verif.LinClient.plain_stream_violation"], "note": "Connects if all addresses are of one family (reaches_partial), only to one that answers, without leaking sockets (connect_sound); SSL library never given null (never_null); closed connections noticed (closed_noticed); encrypted: idle kept, bytes reported, stream a prefix of the messages. Violated: first address IPv6 without answer blocks all IPv4 addresses; without encryption an idle connection is given up at once, 0 is reported for every write, and a partly taken message is cut."},
  {"property": "C122", "status": "partial", "theorems": ["Verif.FileStore.write_read", "Verif.FileStore.spiffs_refuses", "Verif.FileStore.commit_kept", "Verif.FileStore.crash_safe_partial", "Verif.FileStore.clean_not_written", "Verif.FileStore.load_length", "Verif.FileStore.spiffs_crash_violation", "Verif.FileStore.linux_crash_violation", "Verif.FileStore.not_retried_violation", "Verif.FileStore.resize_violation", "Verif.FileStore.outside_violation"], "note": "Read after write for both (write_read), refusal outside for SPIFFS (spiffs_refuses), committed state kept (commit_kept), old or new state if the commit writes nothing or all (crash_safe_partial), no write without change (clean_not_written). Violated: a power cut during the commit loses the state (SPIFFS) or mixes it with zeros (Linux); a failed commit is never repeated; a change of size drops the state (SPIFFS); accesses outside are undefined (Linux; SPIFFS with 32-bit wrap)."},
  {"property": "C123", "status": "partial", "theorems": ["Verif.LinMqtt.wait_bound", "Verif.LinMqtt.retries", "Verif.LinMqtt.cap_violation", "Verif.LinMqtt.not_fresh_violation", "Verif.LinMqtt.no_growth_violation", "Verif.LinMqtt.open_first_partial", "Verif.LinMqtt.open_other_violation", "Verif.LinMqtt.no_address_violation", "Verif.LinMqtt.last_message", "Verif.LinMqtt.subscribed_before_start_partial", "Verif.LinMqtt.subscribed_late_violation", "Verif.LinMqtt.line_per_topic_partial", "Verif.LinMqtt.first_topic_empty_violation"], "note": "Proved: wait at most 65 s in every history, always retried, first address, topics named before the start, last message, one line per topic if the first message is not empty. False of the code: limit of 60 s, reset of the wait after a working connection, growth while the broker is away (TLS build), other addresses, noticing a failed connection (non-TLS build), topics named later, and line positions while the first topic has no message."},
  {"property": "C124", "status": "partial", "theorems": ["Verif.Nvs.last_set", "Verif.Nvs.string_read", "Verif.Nvs.blob_read", "Verif.Nvs.num_read", "Verif.Nvs.missing_read", "Verif.Nvs.restart_keeps", "Verif.Nvs.start_reads", "Verif.Nvs.start_reads_supla", "Verif.Nvs.new_table_violation", "Verif.Nvs.size_present", "Verif.Nvs.leak_violation", "Verif.Nvs.size_violation", "Verif.Nvs.kv_size", "Verif.Nvs.blob_size_violation", "Verif.Nvs.kv_untouched", "Verif.Nvs.untouched_violation"], "note": "Proved: last accepted call wins in every history, reading, restarts with the same table; the sizes and the page on the key-value stores. False of the code: keeping the configuration when the partition suplanvs appears, memory of size questions, buffer size, blob size, and the text field of the page on NVS."},
  {"property": "C125", "status": "partial", "theorems": ["Verif.LinYaml.supla_port_violation", "Verif.LinYaml.supla_port_outside", "Verif.LinYaml.mqtt_port_given", "Verif.LinYaml.mqtt_port_default_partial", "Verif.LinYaml.mqtt_port_default_violation", "Verif.LinYaml.uint8_read", "Verif.LinYaml.uint8_violation", "Verif.LinYaml.mqtt_text", "Verif.LinYaml.mqtt_text_violation", "Verif.LinYaml.use_latest", "Verif.LinYaml.all_numbered", "Verif.LinYaml.numbers_distinct", "Verif.LinYaml.number_honoured_partial", "Verif.LinYaml.in_order", "Verif.LinYaml.append_keeps_partial", "Verif.LinYaml.twice_violation", "Verif.LinYaml.trigger_violation", "Verif.LinYaml.append_violation"], "note": "Given ports, names, numbering without channel_number, distinct channel_number and appended channels without number proved; supla.port is never read, use_ssl: false selects port 8883, numbers above 255 are cut, long MQTT texts overflow, repeated or appended channel_number displaces other channels, channel_number of action triggers is ignored"},
  {"property": "C126", "status": "partial", "theorems": ["Verif.Hvac.Mode.follow_agrees", "Verif.Hvac.Mode.follows_master_partial", "Verif.Hvac.Mode.regulation_runs", "Verif.Hvac.Mode.frozen", "Verif.Hvac.Mode.out_of_limits_violation", "Verif.Hvac.Mode.sensor_forgotten", "Verif.Hvac.Mode.sensor_violation", "Verif.Hvac.Mode.own_schedule_violation", "Verif.Hvac.Mode.blocked_schedule_runs", "Verif.Hvac.Mode.override_waits"], "note": "Proved without a schedule or timer of its own and for set points within the limits of the thermostat; a master set point outside these limits stops the regulation for ever, a thermostat turned off by its sensor is not turned on again, and one in its weekly schedule regulates by its schedule when the program changes"},
  {"property": "C127", "status": "partial", "theorems": ["Verif.Hvac.Sync.agree_partial", "Verif.Hvac.Sync.waiting_sent", "Verif.Hvac.Sync.alt_not_sent_violation", "Verif.Hvac.Sync.refused_violation", "Verif.Hvac.Sync.second_answer_violation", "Verif.Hvac.Sync.broken_violation"], "note": "Holds for histories in which the device is not changed between a schedule it has sent and the last of the two answers, the server accepts, both messages or none are taken by the protocol layer, and the connection does not break between the two (agree_partial). False otherwise: one flag stands for both schedules and any answer clears it (four violations)."},
  {"property": "C128", "status": "partial", "theorems": ["Verif.Hvac.Schedule.default_week", "Verif.Hvac.Schedule.default_hours", "Verif.Hvac.Schedule.night_off", "Verif.Hvac.Schedule.night_violation", "Verif.Hvac.Schedule.started_eq", "Verif.Hvac.Schedule.start_partial", "Verif.Hvac.Schedule.alt_missing", "Verif.Hvac.Schedule.alt_missing_violation", "Verif.Hvac.Schedule.main_kept", "Verif.Hvac.Schedule.main_invalid_violation"], "note": "The default week is proved for all functions and limits (default_week, default_hours, night_off); the choice after a start is exact (started_eq) and right unless exactly one of the two schedules of a thermostat can be used. False in general: with a lower limit above 19 degrees the night is off; a thermostat with a usable main schedule and none for cooling stays off instead of the default; an unusable main schedule is kept and used if the alternative one is fine."},
  {"property": "C129", "status": "partial", "theorems": ["Verif.Hvac.Mode.goes_round_partial", "Verif.Hvac.Mode.alternates", "Verif.Hvac.Mode.diff_stuck", "Verif.Hvac.Mode.diff_violation", "Verif.Hvac.Mode.toggle_stops_partial", "Verif.Hvac.Mode.toggle_twice", "Verif.Hvac.Mode.toggle_ignored", "Verif.Hvac.Mode.toggle_schedule_violation", "Verif.Hvac.Mode.toggle_timer_violation", "Verif.Hvac.Mode.act_in_limits", "Verif.Hvac.Mode.step_by", "Verif.Hvac.Mode.asked_mode", "Verif.Hvac.Mode.asked_phase", "Verif.Hvac.Mode.asked_on"], "note": "Proved for all press and pass sequences for functions other than the differential thermostat (goes_round_partial, alternates), toggle stops every thermostat whose mode is not off (toggle_stops_partial), toggle_twice, act_in_limits, step_by, asked_mode, asked_phase, asked_on. False: a differential thermostat never leaves off; toggle does nothing on a schedule whose current program is off (it heats at the next program); toggle only stops the timer of a timed off started while off."},
  {"property": "C130", "status": "partial", "theorems": ["Verif.Hvac.Mode.ops_clean", "Verif.Hvac.Mode.restart_goes_on_partial", "Verif.Hvac.Mode.restart_weekly", "Verif.Hvac.Mode.restart_program", "Verif.Hvac.Mode.override_lost_violation", "Verif.Hvac.Mode.timer_needs_clock", "Verif.Hvac.Mode.timer_ends_partial", "Verif.Hvac.Mode.timer_no_clock_violation", "Verif.Hvac.Mode.restart_with_clock", "Verif.Hvac.Mode.first_start"], "note": "After every history that ends outside the schedule a restart changes nothing at all (restart_goes_on_partial); on the schedule only a temporary override is lost (restart_weekly, restart_program); the timer ends at the first pass with a clock (timer_ends_partial). False: a temporary change of the set point is lost; without a clock after the restart a timed mode never ends."},
  {"property": "C131", "status": "partial", "theorems": ["Verif.Link.lan_never_false", "Verif.Link.lan_ready_partial", "Verif.Link.lan_stuck", "Verif.Link.lan_ready_violation", "Verif.Link.outage_violation", "Verif.Link.lan_off_violation", "Verif.Link.arduino_ready_partial", "Verif.Link.arduino_ready_violation", "Verif.Link.Wifi.wifi_ready", "Verif.Link.Wifi.wifi_keeps_trying", "Verif.Link.Wifi.wifi_gets_back", "Verif.Link.Wifi.wifi_on", "Verif.Link.Wifi.log_exact", "Verif.Link.Wifi.loss_logged_partial", "Verif.Link.Wifi.loss_logged_violation", "Verif.Link.Wifi.state_address_partial", "Verif.Link.Wifi.state_address_violation", "Verif.Link.restart_every_minute"], "note": "Wi-Fi of ESP-IDF: ready exactly when online, keeps trying, gets back (proved). LAN8720: never ready without a network; ready with one only if it is not set up again while it has an address; after the restart of the network the main loop makes when the server does not answer it is never ready again (violation), and after disable never (violation). Arduino Ethernet: exact unless an address expires. The log: exactly the reasons that differ from the two before; a loss after a working period may be missing (violation). State shows the old address."},
  {"property": "C132", "status": "partial", "theorems": ["Verif.Aggregator.Use.known_partial", "Verif.Aggregator.Use.never_a_stranger_partial", "Verif.Aggregator.Use.lost_for_good", "Verif.Aggregator.Use.function_and_back_violation", "Verif.Aggregator.Use.registered_by_number", "Verif.Aggregator.Use.unused_pump_violation", "Verif.Aggregator.Use.switched_off_violation", "Verif.Aggregator.Use.restart_differs", "Verif.Aggregator.Use.initial_keeps_old", "Verif.Aggregator.Use.initial_violation", "Verif.Aggregator.Use.obeyed_partial", "Verif.Aggregator.Use.same_number_ignored", "Verif.Aggregator.Use.channel_zero_violation", "Verif.Aggregator.Use.default_kept_partial", "Verif.Aggregator.Use.no_pump_default_violation"], "note": "known_partial, never_a_stranger_partial: proved for every history without initial configuration, with tidy configurations (an unused switch carries the thermostat's own number) and without a used relay losing its function. The excluded events refute the claim: a relay whose function is changed and changed back is never followed again (lost_for_good, function_and_back_violation); a configuration with an unused switch registers the relay in its number field (registered_by_number, unused_pump_violation, switched_off_violation, restart_differs); a change of function with an initial configuration leaves the old registration (initial_keeps_old, initial_violation). Setters: obeyed_partial; channel 0 cannot be chosen (same_number_ignored, channel_zero_violation). Defaults: default_kept_partial, no_pump_default_violation."},
  {"property": "C133", "status": "partial", "theorems": ["Verif.Mqtt.State.shown_partial", "Verif.Mqtt.State.catches_up", "Verif.Mqtt.State.topic_stays", "Verif.Mqtt.State.temperature_stays", "Verif.Mqtt.State.former_stays", "Verif.Mqtt.State.offline_unseen", "Verif.Mqtt.State.meter_sent_partial", "Verif.Mqtt.State.meter_reconnect", "Verif.Mqtt.State.gate_closed", "Verif.Mqtt.State.setpoint_unset", "Verif.Mqtt.State.gate_violation", "Verif.Mqtt.State.setpoint_violation", "Verif.Mqtt.State.temperature_violation", "Verif.Mqtt.State.position_violation", "Verif.Mqtt.State.meter_violation", "Verif.Mqtt.State.former_violation", "Verif.Mqtt.State.offline_violation"], "note": "Proved for every history (invariant) for relays, shutters with a known position, available sensors, lights, thermostats with a set point and binary sensors; a connection, a pass and the channel's turn settle any channel; meter values are exact to half a digit when they are sent. Refuted: gates are always closed, a lost temperature stays, an unset set point is -327.68, an unknown position is open, a meter is not told at connection, topics of a former function stay, offline cannot be seen. Not modelled: double rounding, quality of service."},
  {"property": "C134", "status": "partial", "theorems": ["Verif.Mqtt.Discovery.document_partial", "Verif.Mqtt.Discovery.states_partial", "Verif.Mqtt.Discovery.commands_partial", "Verif.Mqtt.Discovery.offers_partial", "Verif.Mqtt.Discovery.availability", "Verif.Mqtt.Discovery.modes_offered", "Verif.Mqtt.Discovery.binary_read", "Verif.Mqtt.Discovery.relay_read", "Verif.Mqtt.Discovery.action_announced", "Verif.Mqtt.Discovery.only_actions", "Verif.Mqtt.Discovery.types_differ", "Verif.Mqtt.Discovery.button_numbers", "Verif.Mqtt.Discovery.replaced_partial", "Verif.Mqtt.Discovery.thermometer_partial", "Verif.Mqtt.Discovery.nothing_sent", "Verif.Mqtt.Discovery.quote_violation", "Verif.Mqtt.Discovery.form_violation", "Verif.Mqtt.Discovery.balanced_violation", "Verif.Mqtt.Discovery.setpoint_violation", "Verif.Mqtt.Discovery.light_violation", "Verif.Mqtt.Discovery.claims_violation", "Verif.Mqtt.Discovery.former_violation", "Verif.Mqtt.Discovery.one_document_violation", "Verif.Mqtt.Discovery.thermometer_violation", "Verif.Mqtt.Discovery.expire_violation", "Verif.Mqtt.Discovery.device_class", "Verif.Mqtt.Discovery.no_class", "Verif.Mqtt.Discovery.relay_types"], "note": "Proved for every channel type: form and unique reading (texts without quotation marks, backslashes and control characters), topics to read and to write, payloads, modes, words, availability, buttons both ways. Refuted: quotation marks are not escaped, balanced energies and both setpoints of heat and cool name topics never used, a colour light ignores on and off, the former document of a relay stays, the thermometer topics of a thermostat are cut at 99 characters, a steady temperature expires. Not modelled: templates (val_tpl, pos_tpl) inside strings, units, the broker."},
  {"property": "C135", "status": "partial", "theorems": ["Verif.Calendar.told_partial", "Verif.Calendar.shown_valid", "Verif.Calendar.weekday", "Verif.Calendar.quarters", "Verif.Calendar.entered", "Verif.Calendar.refused_partial", "Verif.Calendar.february", "Verif.Calendar.command_partial", "Verif.Calendar.empty_request", "Verif.Calendar.right_partial", "Verif.Calendar.unknown", "Verif.Calendar.lost_believed", "Verif.Calendar.epoch_violation", "Verif.Calendar.february_violation", "Verif.Calendar.command_violation", "Verif.Calendar.lost_violation"], "note": "Told, Refused, ShortRefused and AlwaysRight are kept as full claims and are false: epoch, 31 February, empty request of data type 0, and a chip that lost power but shows a year from 2023 on. mktime/localtime of the C library are modelled, not verified. Linux left out."},
  {"property": "C136", "status": "partial", "theorems": ["Verif.Climate.correction_partial", "Verif.Climate.reported", "Verif.Climate.thermometer", "Verif.Climate.unavailable", "Verif.Climate.thermostat_partial", "Verif.Climate.humidity_available", "Verif.Climate.bridged", "Verif.Climate.gives_partial", "Verif.Climate.stale", "Verif.Climate.retried", "Verif.Climate.defined_partial", "Verif.Climate.pressure_partial", "Verif.Climate.missing_pressure", "Verif.Climate.fresh", "Verif.Climate.rare", "Verif.Climate.renumbered_violation", "Verif.Climate.cold_violation", "Verif.Climate.stale_violation", "Verif.Climate.nan_violation", "Verif.Climate.pressure_violation"], "note": "Full claims Follows, Available, Gives, Defined and PressureHonest are stated and false: corrections stay with the channel number, a reading below -225 degrees may become 'not available', an AHT taken away shows its last value for ever, not-a-number of a BME280 is converted to an integer, a missing pressure is converted for the altitude. Doubles are rationals; sensor libraries are arbitrary."},
  {"property": "C137", "status": "partial", "theorems": ["Verif.Relay.Remain.shown_partial", "Verif.Relay.Remain.told_again_partial", "Verif.Relay.Remain.switches_when_due", "Verif.Relay.Remain.same_ms_violation", "Verif.Relay.Remain.always_violation", "Verif.Relay.Remain.round_violation"], "note": "Proved for all histories in which no timer is started in milliseconds 0 or 1 of the counter or in the millisecond last told, and a running timer is looked at within one round of the counter. Outside: the second timer of one millisecond is never told, and neither is one started when the counter is at zero."},
  {"property": "C138", "status": "partial", "theorems": ["Verif.Relay.Command.virtual_is_relay_partial", "Verif.Relay.Command.commands_follow", "Verif.Relay.Command.commands_follow_all", "Verif.Relay.Command.start_command", "Verif.Relay.Command.timer_ends_partial", "Verif.Relay.Command.reported_partial", "Verif.Relay.Command.offline_partial", "Verif.Relay.Command.never_off_violation", "Verif.Relay.Command.staircase_violation", "Verif.Relay.Command.timedOnEnds_violation", "Verif.Relay.Command.no_process_violation", "Verif.Relay.Command.minimum_violation"], "note": "Commands, reported state and availability proved for all histories. The end of a timed switching on is proved when the source says on at that moment (or there is none); otherwise the relay is switched on again and never off. The equality with a relay on a pin is proved without minimum duration; with one it fails for staircase timers. Starting a process that cannot be started is undefined behaviour."},
  {"property": "C139", "status": "partial", "theorems": ["Verif.Mqtt.Tasks.exclusive", "Verif.Mqtt.Tasks.inside_owns", "Verif.Mqtt.Tasks.mutex_discipline", "Verif.Mqtt.Tasks.handlerMutex_discipline", "Verif.Mqtt.Tasks.handled_before", "Verif.Mqtt.Tasks.no_deadlock", "Verif.Mqtt.Tasks.comes_back", "Verif.Mqtt.Tasks.setup_sent", "Verif.Mqtt.Tasks.setup_after_connect", "Verif.Mqtt.Tasks.main_keeps_connected", "Verif.Mqtt.Tasks.connected_violation", "Verif.Mqtt.Tasks.connected_partial", "Verif.Mqtt.Tasks.intake_partial", "Verif.Mqtt.Tasks.long_topic_violation", "Verif.Mqtt.Tasks.long_data_violation", "Verif.Mqtt.Tasks.intake_violation"], "note": "Proved for every interleaving: mutual exclusion, lock discipline, no deadlock (with a bound on the number of steps), complete setup over the present connection. The client library is assumed to behave as stated in Tasks.lean. False: disconnect() leaves the device considering itself connected (proved as long as the client is never stopped); topics of 256 characters and more make the program read behind its buffer; texts longer than 49 characters are cut."},
  {"property": "C140", "status": "partial", "theorems": ["Verif.Info.told_what_drivers_said", "Verif.Info.told_about_device", "Verif.Info.told_about_lamps", "Verif.Info.second_channel_silent", "Verif.Info.second_channel_violation", "Verif.Info.level_stays", "Verif.Info.level_withdrawn_violation", "Verif.Info.sent_on_schedule", "Verif.Info.sent_recently", "Verif.Info.sent_sparsely", "Verif.Info.sent_channels", "Verif.Info.refreshed", "Verif.Info.refresh_undefined", "Verif.Info.number_violation", "Verif.Info.unreadable_powered", "Verif.Info.unreadable_violation"], "note": "Proved for main channels: fields marked and their values equal the last reports of the drivers, the device's own data, lamps, and the schedule (refinement of the 32-bit clock to unbounded time, freshness, sparseness, the channels sent). False, with a statement for all cases: a second channel's battery and signal are never told; a known battery level can never become unknown; a sensor file that cannot be read makes a mains-powered sensor 'battery powered'; a level outside 0..255 in a file is undefined behaviour. The octets of the message are those of the structure and are not modelled here; a source is represented by the integral part of its number."},
  {"property": "C141", "status": "partial", "theorems": ["Verif.Hvac.Told.app_shows_time_left", "Verif.Hvac.Told.display_agrees", "Verif.Hvac.Told.told_after_registration", "Verif.Hvac.Told.new_timer_told", "Verif.Hvac.Told.lost_countdown", "Verif.Hvac.Told.shown_violation", "Verif.Hvac.Told.wrong_by_correction", "Verif.Hvac.Told.correction_violation"], "note": "Proved for every history with a clock that does not go back and stays before 2038 (invariant: what is marked as told is what the server was told). False: a countdown forgotten by a pass (weekly schedule for an hour) is shown to its end; a correction of the clock is not told, the app is wrong by exactly the correction (statement for all cases: wrong_by_correction). Restart of the device, the encoding of the message and its loss on the way are not in this model."},
  {"property": "C142", "status": "partial", "theorems": ["Verif.Identity.linux_identity_kept", "Verif.Identity.nvs_identity_kept_partial", "Verif.Identity.identity_kept_partial", "Verif.Identity.reset_cut_new_identity", "Verif.Identity.reset_cut_violation", "Verif.Identity.refused_commit_new_identity", "Verif.Identity.refused_commit_violation", "Verif.Identity.never_mixed_partial", "Verif.Identity.mixed_violation", "Verif.Identity.starts", "Verif.Identity.lost_half_renewed", "Verif.Identity.guid_not_kept_violation", "Verif.Identity.zeros_never_start", "Verif.Identity.repeats", "Verif.Identity.distinct_violation", "Verif.Identity.key_follows_from_guid_violation", "Verif.Identity.few_keys"], "note": "Linux keeps one identity under every refused write and power cut; NVS and file images do if factory resets are whole and (file images) writes are accepted. False of the code: a factory reset interrupted after its first write, and a refused commit, make another device; on NVS a refused write can pair an old GUID with a new key; on Linux identities repeat every 2^32 clock ticks and the key follows from the GUID."},
  {"property": "C143", "status": "partial", "theorems": ["Verif.Counter.Torn.never_less", "Verif.Counter.Torn.no_carry_partial", "Verif.Counter.Torn.one_word_right", "Verif.Counter.Torn.one_pulse", "Verif.Counter.Torn.carry_read", "Verif.Counter.Torn.carry_violation", "Verif.Counter.Torn.saved_violation", "Verif.Counter.Torn.saved_not_less", "Verif.Counter.Torn.backwards_violation", "Verif.Counter.Torn.never_more", "Verif.Counter.Torn.high_violation", "Verif.Counter.Torn.reset_counts", "Verif.Counter.Torn.reset_high", "Verif.Counter.Torn.reset_high_violation", "Verif.Counter.Torn.increment_loses", "Verif.Counter.Torn.increment_violation", "Verif.Counter.Torn.increment_counted_partial"], "note": "Read from the lowest word up the number is never too small, and right if no carry leaves the lowest word; with one pulse the result is given exactly. In one word it is always right. False of the code for every smaller word: at a carry the number is too large (255 saved as 511, on every platform since saving copies bytes) or, from the highest word, too small; a reset in that order leaves a word's worth; pulses during an INCREMENT action are lost."},
  {"property": "C144", "status": "partial", "theorems": ["Verif.Shutter.Obey.command_obeyed_partial", "Verif.Shutter.Obey.stop_obeyed", "Verif.Shutter.Obey.reversal_lost", "Verif.Shutter.Obey.commands_obeyed_violation", "Verif.Shutter.Obey.overlapping_interlocked", "Verif.Shutter.Obey.split_command_partial", "Verif.Shutter.Obey.split_lost", "Verif.Shutter.Obey.mid_lost", "Verif.Shutter.Obey.run_done"], "note": "Proved for every reachable state and schedule except a reversal by up/down of a movement that has lasted longer than the travel time in the new direction and its margin, which always loses the command. With overlaps: the interlock holds; a command is lost when the operation timeout ends between its two assignments, or when it arrives from another core while the timer takes an earlier one. Calibration runs and shutters without travel times are not part of the liveness theorem."},
  {"property": "C145", "status": "partial", "theorems": ["Verif.ChanCfg.Keep.function_kept_partial", "Verif.ChanCfg.Keep.function_is_told", "Verif.ChanCfg.Keep.never_kept", "Verif.ChanCfg.Keep.function_kept_violation", "Verif.ChanCfg.Keep.improper_lost", "Verif.ChanCfg.Keep.purged"], "note": "Proved for channels whose element reads the stored function (relays, binary sensors, thermostats, roller shutters) and functions that are proper for the channel. Refuted for all other channels, which store the function and never read it, and for functions a binary sensor accepts but does not read back. The storage is one key that is saved at once."},
  {"property": "C146", "status": "partial", "theorems": ["Verif.Payload.stoi_finds", "Verif.Payload.sent_as_set_iff", "Verif.Payload.sent_as_set_violation", "Verif.Payload.told_apart_violation", "Verif.Payload.told_apart_partial", "Verif.Payload.big_number_ends", "Verif.Payload.checked_violation", "Verif.Payload.json_iff", "Verif.Payload.json_violation", "Verif.Payload.json_members", "Verif.Payload.json_word_iff", "Verif.Payload.command_run", "Verif.Payload.command_cut", "Verif.Payload.command_run_violation", "Verif.Payload.mixed_violation", "Verif.Payload.mixed_example", "Verif.Payload.qos_kept_iff", "Verif.Payload.qos_kept_violation", "Verif.Payload.no_payload_violation", "Verif.Payload.not_set_same", "Verif.Payload.follows_partial", "Verif.Payload.start_not_published", "Verif.Payload.follows_violation", "Verif.Payload.switched_file"], "note": "The claim is false of the code. Exact characterisation of the texts sent unchanged (sent_as_set_iff), of the JSON read back (json_iff, json_word_iff), of the commands run (command_run, command_cut), of the quality of service kept (qos_kept_iff); violations: text after a number is dropped, on and off may coincide, a big number ends the program, quotes break the JSON, commands are cut at 255 characters, number/text pairs have no defined command line, qos becomes the retain flag, no payload section crashes, lost messages are not repeated. After every history whose last operation reached the output the last effect is that of the shown state (follows_partial)."},
  {"property": "C147", "status": "partial", "theorems": ["Verif.Pages.switch_stored", "Verif.Pages.page_saved", "Verif.Pages.only_the_page_partial", "Verif.Pages.beta_page_disables", "Verif.Pages.only_the_page_violation", "Verif.Pages.named_only_violation", "Verif.Pages.named_only_partial", "Verif.Pages.cut_then_off", "Verif.Pages.last_form_violation", "Verif.Pages.last_form_partial", "Verif.Pages.commands_run", "Verif.Pages.home_noted_again", "Verif.Pages.noted_violation", "Verif.Pages.change_forgotten", "Verif.Pages.noted_partial", "Verif.Pages.tag_ends_iff"], "note": "The claim is false of the code. Proved for all element lists and forms: a complete form sets each switch exactly as it says (switch_stored, page_saved, last_form_partial over histories without broken-off posts); settings of the other page stay except those of the network on the beta page (only_the_page_partial); settings that are no switches stay when not named (named_only_partial); commands run exactly (commands_run); noting changes (noted_partial, change_forgotten). Violations: saving the beta page disables Ethernet and Wi-Fi, forms without switches switch them off, a broken-off form makes the next one ineffective, the home screen is noted as changed for ever, tags of more than 15 characters have no end."},
  {"property": "C148", "status": "partial", "theorems": ["Verif.Versions.table_partial", "Verif.Versions.table_violation", "Verif.Versions.unknown_refused", "Verif.Versions.allowed_iff", "Verif.Versions.wire_documented", "Verif.Versions.one_version", "Verif.Versions.begin_once", "Verif.Versions.registers", "Verif.Versions.calls_sent_partial", "Verif.Versions.details_never_sent", "Verif.Versions.calls_sent_violation", "Verif.Versions.low_is_23_partial", "Verif.Versions.low_is_23_violation", "Verif.Versions.never_settles", "Verif.Versions.settles_violation", "Verif.Versions.settles_partial", "Verif.Versions.layer_mute", "Verif.Versions.layer_registers_partial", "Verif.Versions.layer_registers_violation"], "note": "Proved for all histories: frames carry 23, 24 or 25 and only calls documented for it, one version per device, each connection begins with a registration of that version. The table equals the header but for one row. Violated: details of a subdevice are silently never sent below version 25 (the default is 23); begin with 20 or less speaks 23 without announcing remote configuration; the server's answer about its versions is not used; a layer made with versions 1 to 22 never registers."},
  {"property": "C149", "status": "partial", "theorems": ["Verif.Eeprom.read_back", "Verif.Eeprom.read_back_partial", "Verif.Eeprom.outside_lost", "Verif.Eeprom.read_back_violation", "Verif.Eeprom.others_kept", "Verif.Eeprom.consistent", "Verif.Eeprom.committed_kept", "Verif.Eeprom.failed_forgotten", "Verif.Eeprom.commit_keeps_violation", "Verif.Eeprom.commit_keeps_partial", "Verif.Eeprom.uncommitted_gone"], "note": "Proved for all histories: isolation of writes, exactly what is read back, consistency after a restart at any point, everything kept if no commit failed. Violated: bytes beyond the end are dropped while the write reports success; a failed commit is forgotten and later commits do nothing until the next write."},
  {"property": "C150", "status": "partial", "theorems": ["Verif.Lamp.shows", "Verif.Lamp.holds_still", "Verif.Lamp.start_wrong", "Verif.Lamp.start_violation", "Verif.Lamp.start_partial", "Verif.Lamp.start_mended", "Verif.Lamp.quiet_partial", "Verif.Lamp.noisy", "Verif.Lamp.quiet_violation", "Verif.Lamp.wide_source"], "note": "Proved for all histories after the start, for sources that give a byte: each update shows the source and nothing else moves the lamp. Violated: at the start, when the pin floats at the level wanted; every update writes if the source gives a value other than 0 and 1; values that are multiples of 256 show as off."},
  {"property": "C151", "status": "partial", "theorems": ["Verif.Logs.whole", "Verif.Logs.shown_if", "Verif.Logs.dropped_if", "Verif.Logs.defined_partial", "Verif.Logs.double_undefined", "Verif.Logs.defined_violation", "Verif.Logs.printed_iff", "Verif.Logs.read_fraction", "Verif.Logs.time_right_iff", "Verif.Logs.early_reads_late", "Verif.Logs.time_violation", "Verif.Logs.time_partial", "Verif.Logs.order_violation"], "note": "Proved for all texts, memory limits and levels: whole or nothing, exactly when. Violated: a message vsnprintf rejects doubles the buffer until the int overflows where memory is always given; the microseconds have no leading zeros, so times are right exactly at 0 and from 100000 on and lines of the first tenth of a second read as later."},
  {"property": "C152", "status": "partial", "theorems": ["Verif.Pads.obeys_without_hold", "Verif.Pads.obeys_after_write_partial", "Verif.Pads.input_releases", "Verif.Pads.run_other", "Verif.Pads.registers", "Verif.Pads.relay_driven", "Verif.Pads.pinOutput_driven", "Verif.Pads.shutter_moves", "Verif.Pads.silent_violation", "Verif.Pads.obeys_with_hold_violation", "Verif.Pads.unknown_mode_keeps_violation", "Verif.Pads.run_undefined_violation", "Verif.Pads.shutter_undriven_violation", "Verif.Pads.led_undriven_violation", "Verif.Pads.bistable_undriven_violation", "Verif.Pads.stop_undriven_violation"], "note": "Proved without hold for all lists of calls; with hold proved when the last call for the pin is a write or makes it an input, false otherwise: a write before pinMode(OUTPUT) leaves the pad without a driver until the next write (roller shutter, bistable relay, three-button stop, blinking LED). Behaviour of a held pad taken from ESP-IDF documentation; start after a software restart and digitalRead not modelled."},
  {"property": "C153", "status": "partial", "theorems": ["Verif.Kinds.kept_partial", "Verif.Kinds.lost", "Verif.Kinds.registered_injective", "Verif.Kinds.last_set", "Verif.Kinds.temperature_read", "Verif.Kinds.temperature_none", "Verif.Kinds.kept_violation", "Verif.Kinds.unnamed_lost_violation", "Verif.Kinds.old_thermometer_violation"], "note": "Proved for the 21 types with a name; the 17 other types of the protocol are registered as zero and no temperature is read from the older thermometers. The value of the channel is given, not decoded."},
  {"property": "C154", "status": "partial", "theorems": ["Verif.Locks.autolock_balanced", "Verif.Locks.exclusive", "Verif.Locks.one_at_a_time", "Verif.Locks.no_deadlock", "Verif.Locks.methods_guard", "Verif.Locks.read_guards", "Verif.Locks.available_guards", "Verif.Locks.ledIterate_guards", "Verif.Locks.nested_waits", "Verif.Locks.custom_unguarded_violation", "Verif.Locks.custom_race_violation"], "note": "Proved for all modelled methods except setCustomSequence of the LED, which uses the pin after releasing its lock; a schedule with two tasks at the pin is given. The flag of connected() and the mode read by getMode(), both read without a lock, and the mutex of the log of last states taken inside connect are not modelled."},
  {"property": "C155", "status": "partial", "theorems": ["Verif.Refresh.together_partial", "Verif.Refresh.temperature_recent", "Verif.Refresh.readings_apart", "Verif.Refresh.never_read_violation", "Verif.Refresh.together_violation"], "note": "Temperature: proved for all times. Pressure: proved when the clock does not move within a round; false otherwise, the reading of a period is skipped when the clock ticks between the two checks. What is read is not modelled."},
  {"property": "C156", "status": "partial", "theorems": ["Verif.Watchdog.working_not_reset", "Verif.Watchdog.hanging_reset", "Verif.Watchdog.hanging_reset_always", "Verif.Watchdog.reset_stays", "Verif.Watchdog.follows_change", "Verif.Watchdog.follows_partial", "Verif.Watchdog.mode_ignored_violation", "Verif.Watchdog.follows_violation", "Verif.Watchdog.download_kept_violation"], "note": "Restart of a hanging device and none of a working one proved for all histories. The timeout is the one due after every accepted change of status and while nothing sets the mode; false when the mode is set without a change of status, and after a download given up, until the device is registered again. The chip is taken from its documentation; the action run by disableCfgModeTimeout is not modelled."},
  {"property": "C157", "status": "partial", "theorems": ["Verif.Crc8.appended_iff", "Verif.Crc8.one_byte_detected", "Verif.Crc8.burst_detected", "Verif.Crc8.odd_flips_detected", "Verif.Crc8.leading_zeros_violation", "Verif.Crc8.zeros_pass_violation", "Verif.Crc8.length_violation"], "note": "Detection of damage proved; blocks of different length are not told apart: zero bytes in front change nothing, and a block of zeros passes with a CRC of zero."},
  {"property": "C158", "status": "partial", "theorems": ["Verif.AtConfig.configured", "Verif.AtConfig.wrong_size_refused", "Verif.AtConfig.announced_iff", "Verif.AtConfig.waiting_iff", "Verif.AtConfig.sent_announced", "Verif.AtConfig.name_beside_condition_violation", "Verif.AtConfig.name_violation", "Verif.AtConfig.range_violation", "Verif.AtConfig.start_violation", "Verif.AtConfig.order_violation"], "note": "Acceptance, announced and sent actions proved for conditions one to an element and numbers 0 to 31; a name beside a condition is not seen, other numbers are accepted and undefined, and the order of waiting actions is lost."},
  {"property": "C159", "status": "partial", "theorems": ["Verif.CmdOut.calls_write", "Verif.CmdOut.setOutput_calls", "Verif.CmdOut.heating_follows", "Verif.CmdOut.both_heating_follows", "Verif.CmdOut.same_runs_nothing", "Verif.CmdOut.second_needs_both", "Verif.CmdOut.start_runs_off", "Verif.CmdOut.cooling_never_on_violation", "Verif.CmdOut.both_never_cools_violation", "Verif.CmdOut.cooling_violation", "Verif.CmdOut.reports_cooling_violation", "Verif.CmdOut.popen_violation", "Verif.CmdOut.set_violation"], "note": "Proved for heating, alone and with cooling. Cooling never runs the command for on although it is reported: the output gets -1, for which there is no command. A failed popen is undefined."},
  {"property": "C160", "status": "partial", "theorems": ["Verif.StateFile.file_holds_lines", "Verif.StateFile.no_directory_no_file", "Verif.StateFile.lines_stay_partial", "Verif.StateFile.start_erases_violation", "Verif.StateFile.killed_start_violation", "Verif.StateFile.lines_violation"], "note": "Proved from the last start on; every start empties the file, so the lines before a restart are lost. Lines written in part are not modelled."},
  {"property": "C161", "status": "partial", "theorems": ["Verif.UpdateUrl.checked_at", "Verif.UpdateUrl.accepted_iff", "Verif.UpdateUrl.create_reads", "Verif.UpdateUrl.create_size", "Verif.UpdateUrl.long_url_violation", "Verif.UpdateUrl.reads_violation"], "note": "Proved for addresses set through the configuration. An update made with an address of more than 201 characters has no end of string in its buffer; the storage is taken to keep strings."}
]}
