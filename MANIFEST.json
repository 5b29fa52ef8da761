{"claims": [
{"property": "C01", "status": "proved", "theorems": ["Uwan.C01_uplink_frame"], "note": ""},
{"property": "C02", "status": "proved", "theorems": ["Uwan.C02_payload_decrypts"], "note": ""},
{"property": "C03", "status": "proved", "theorems": ["Uwan.C03_frame_length"], "note": ""},
{"property": "C04", "status": "proved", "theorems": ["Uwan.C04_length_error", "Uwan.C04_reported_size"], "note": ""},
{"property": "C05", "status": "proved", "theorems": ["Uwan.C05_refused_no_effect"], "note": ""},
{"property": "C06", "status": "proved", "theorems": ["Uwan.C06_uplink_counter"], "note": ""},
{"property": "C07", "status": "proved", "theorems": ["Uwan.C07_no_block_reuse"], "note": ""},
{"property": "C08", "status": "proved", "theorems": ["Uwan.C08_one_exchange"], "note": ""},
{"property": "C09", "status": "proved", "theorems": ["Uwan.C09_alternate"], "note": ""},
{"property": "C10", "status": "partial", "theorems": ["Uwan.C10_completes_partial", "Uwan.C10_deadlock", "Uwan.C10_late", "Uwan.C10_stuck"], "note": "Needs the second timer to be still running when the first window times out; C10_deadlock is a counterexample without that. C10_late and C10_stuck show what the first late time-out leads to: the radio and the timers are at rest, nothing more happens and every uplink is refused until the stack is initialised again. C122 derives the hypothesis about the second timer from latencies."},
{"property": "C11", "status": "proved", "theorems": ["Uwan.C11_timers"], "note": ""},
{"property": "C12", "status": "partial", "theorems": ["Uwan.C12_frequency", "Uwan.C12_datarate_partial", "Uwan.C12_backoff", "Uwan.C12_join"], "note": "The frequency part holds in full. With an offset the code starts from the data rate configured when the transmission ends; C12_backoff and C12_join are counterexamples."},
{"property": "C13", "status": "proved", "theorems": ["Uwan.C13_rx2", "Uwan.C13_only_windows"], "note": ""},
{"property": "C14", "status": "proved", "theorems": ["Uwan.C14_directed"], "note": ""},
{"property": "C15", "status": "proved", "theorems": ["Uwan.C15_band"], "note": ""},
{"property": "C16", "status": "proved", "theorems": ["Uwan.C16_enabled", "Uwan.C16_no_channel"], "note": ""},
{"property": "C17", "status": "proved", "theorems": ["Uwan.C17_reachable", "Uwan.C17_terminates"], "note": ""},
{"property": "C18", "status": "proved", "theorems": ["Uwan.C18_set", "Uwan.C18_enable", "Uwan.C18_untouched", "Uwan.C18_last_set", "Uwan.C18_last_disabled", "Uwan.C18_legal"], "note": ""},
{"property": "C19", "status": "partial", "theorems": ["Uwan.C19_init_partial", "Uwan.C19_stale"], "note": "uwan_init installs the defaults but leaves frequencies of other channels from before; C19_stale is a counterexample."},
{"property": "C20", "status": "proved", "theorems": ["Uwan.C20_adr_bits", "Uwan.C20_ack_request"], "note": ""},
{"property": "C21", "status": "proved", "theorems": ["Uwan.C21_backoff", "Uwan.C21_reaches_dr0"], "note": ""},
{"property": "C22", "status": "partial", "theorems": ["Uwan.C22_ack_bit_partial", "Uwan.C22_forged_ack"], "note": "The code sets the ACK flag before address, counter and MIC are checked; C22_forged_ack is a counterexample to the claim."},
{"property": "C23", "status": "partial", "theorems": ["Uwan.C23_sent_once_partial", "Uwan.C23_not_repeated"], "note": "NbTrans is stored but never used; C23_not_repeated is a counterexample to the claim."},
{"property": "C24", "status": "partial", "theorems": ["Uwan.C24_power_partial", "Uwan.C24_wraps"], "note": "Holds whenever the value fits int8_t; C24_wraps is a counterexample for a very low maximum."},
{"property": "C25", "status": "partial", "theorems": ["Uwan.C25_needs_init_partial", "Uwan.C25_sends_unjoined"], "note": "The code does not ask whether it is joined; C25_sends_unjoined is a counterexample to the claim."},
{"property": "C26", "status": "partial", "theorems": ["Uwan.C26_app_key_partial", "Uwan.C26_port_zero"], "note": "The port is not checked; C26_port_zero is a counterexample to the claim."},
{"property": "C27", "status": "proved", "theorems": ["Uwan.C27_verdict", "Uwan.C27_accepted"], "note": ""},
{"property": "C28", "status": "proved", "theorems": ["Uwan.C28_genuine"], "note": ""},
{"property": "C29", "status": "proved", "theorems": ["Uwan.C29_safe"], "note": ""},
{"property": "C30", "status": "partial", "theorems": ["Uwan.C30_partial", "Uwan.C30_forged"], "note": "Counter, ACK flag and MAC commands are taken over before the MIC is checked; C30_forged is a counterexample to the claim."},
{"property": "C31", "status": "partial", "theorems": ["Uwan.C31_increasing_partial", "Uwan.C31_no_replay_partial", "Uwan.C31_zero_replay"], "note": "A frame with counter 0 can be replayed (C31_zero_replay); the theorems ask for a non-zero counter away from 2^32."},
{"property": "C32", "status": "proved", "theorems": ["Uwan.C32_counter"], "note": ""},
{"property": "C33", "status": "partial", "theorems": ["Uwan.C33_partial", "Uwan.C33_forged"], "note": "A frame with a wrong MIC moves the counter; C33_forged is a counterexample to the claim."},
{"property": "C34", "status": "partial", "theorems": ["Uwan.C34_partial", "Uwan.C34_foreign_ack"], "note": "A confirmed frame for another device sets the ACK flag; C34_foreign_ack is a counterexample to the claim."},
{"property": "C35", "status": "partial", "theorems": ["Uwan.C35_fopts_partial", "Uwan.C35_port0"], "note": "FOpts are executed; a payload on port 0 is not, C35_port0 is a counterexample to the claim."},
{"property": "C36", "status": "proved", "theorems": ["Uwan.C36_callback"], "note": ""},
{"property": "C37", "status": "proved", "theorems": ["Uwan.C37_signal", "Uwan.C37_margin"], "note": ""},
{"property": "C38", "status": "proved", "theorems": ["Uwan.C38_join_request", "Uwan.C38_keys"], "note": ""},
{"property": "C39", "status": "proved", "theorems": ["Uwan.C39_session", "Uwan.C39_verdict", "Uwan.C42_cflist"], "note": ""},
{"property": "C40", "status": "proved", "theorems": ["Uwan.C40_failed_join"], "note": ""},
{"property": "C41", "status": "proved", "theorems": ["Uwan.C41_is_joined"], "note": ""},
{"property": "C42", "status": "proved", "theorems": ["Uwan.C42_cflist"], "note": ""},
{"property": "C43", "status": "proved", "theorems": ["Uwan.C43_defaults_kept", "Uwan.C42_cflist"], "note": ""},
{"property": "C44", "status": "partial", "theorems": ["Uwan.C44_partial", "Uwan.C44_stale_join"], "note": "uwan_init does not forget a pending join; C44_stale_join is a counterexample to the claim."},
{"property": "C45", "status": "proved", "theorems": ["Uwan.C45_bounded", "Uwan.C45_request", "Uwan.C45_answers", "Uwan.C45_kept", "Uwan.C45_init"], "note": ""},
{"property": "C46", "status": "proved", "theorems": ["Uwan.C46_carried", "Uwan.C46_kept", "Uwan.C46_once"], "note": ""},
{"property": "C47", "status": "proved", "theorems": ["Uwan.C47_decode", "Uwan.C47_prefix", "Uwan.C47_unique"], "note": "That the parser ends and stays inside the field is C29_safe."},
{"property": "C48", "status": "proved", "theorems": ["Uwan.C48_link_adr", "Uwan.C48_bits"], "note": ""},
{"property": "C49", "status": "partial", "theorems": ["Uwan.C49_mask_partial", "Uwan.C49_refused_partial", "Uwan.C49_cntl6", "Uwan.C49_cntl1"], "note": "The code looks only at bit 2 of ChMaskCntl; C49_cntl6 and C49_cntl1 are counterexamples to the claim."},
{"property": "C50", "status": "partial", "theorems": ["Uwan.C50_audible_partial", "Uwan.C50_mute"], "note": "An empty channel mask is accepted; C50_mute is a counterexample to the claim."},
{"property": "C51", "status": "proved", "theorems": ["Uwan.C51_rx_param"], "note": ""},
{"property": "C52", "status": "proved", "theorems": ["Uwan.C52_new_channel"], "note": ""},
{"property": "C53", "status": "proved", "theorems": ["Uwan.C53_rx_timing", "Uwan.C53_delay"], "note": ""},
{"property": "C54", "status": "proved", "theorems": ["Uwan.C54_dev_status", "Uwan.C37_margin"], "note": ""},
{"property": "C55", "status": "proved", "theorems": ["Uwan.C55_skipped", "Uwan.C55_link_check", "Uwan.C55_duty_cycle"], "note": ""},
{"property": "C56", "status": "proved", "theorems": ["Uwan.C56_inverse", "Uwan.C56_shift", "Uwan.C56_device_time"], "note": ""},
{"property": "C57", "status": "partial", "theorems": ["Uwan.C57_stamped_partial", "Uwan.C57_on_air", "Uwan.C57_join", "Uwan.C57_refused"], "note": "The stamp can be taken by another transmission or lost; C57_on_air, C57_join and C57_refused are counterexamples to the claim."},
{"property": "C58", "status": "partial", "theorems": ["Uwan.C58_answered_partial", "Uwan.C58_dropped"], "note": "With a full queue a command takes effect unanswered; C58_dropped is a counterexample to the claim."},
{"property": "C59", "status": "proved", "theorems": ["Uwan.C59_setters"], "note": ""},
{"property": "C60", "status": "partial", "theorems": ["Uwan.C60_rates_partial", "Uwan.C60_dr256"], "note": "Arguments of 256 and more are cut to 8 bits before the check; C60_dr256 is a counterexample to the claim."},
{"property": "C61", "status": "partial", "theorems": ["Uwan.C61_defined_partial", "Uwan.C61_handlers_partial", "Uwan.C61_null_callback", "Uwan.C61_shift"], "note": "C61_null_callback and C61_shift are the two counterexamples to the claim, and the only ones by C61_defined_partial."},
{"property": "C62", "status": "proved", "theorems": ["Uwan.C62_contexts"], "note": ""},
{"property": "C63", "status": "proved", "theorems": ["Uwan.C63_time_request"], "note": ""},
{"property": "C64", "status": "proved", "theorems": ["Uwan.C64_applied", "Uwan.C64_accepted", "Uwan.C64_replay"], "note": ""},
{"property": "C65", "status": "proved", "theorems": ["Uwan.C65_answers", "Uwan.C65_request", "Uwan.C65_sent", "Uwan.C65_handle"], "note": ""},
{"property": "C66", "status": "partial", "theorems": ["Uwan.C66_defined_partial", "Uwan.C66_exact", "Uwan.C66_ends", "Uwan.C66_overread", "Uwan.C66_wild", "Uwan.C66_shift"], "note": "C66_overread, C66_wild and C66_shift are counterexamples to the claim; by C66_exact, with C67_overflow, they are all there are."},
{"property": "C67", "status": "partial", "theorems": ["Uwan.C67_periods_partial", "Uwan.C67_wrong", "Uwan.C67_overflow"], "note": "Right only for periods 0, 1 and 2; C67_wrong and C67_overflow show the others wrong."},
{"property": "C68", "status": "proved", "theorems": ["Uwan.C68_once", "Uwan.C68_answers", "Uwan.C68_stop"], "note": ""},
{"property": "C69", "status": "proved", "theorems": ["Uwan.C69_pending", "Uwan.C69_resend", "Uwan.C69_none", "Uwan.C69_kept"], "note": ""},
{"property": "C70", "status": "proved", "theorems": ["Uwan.Sx127x.C70_frequency"], "note": ""},
{"property": "C71", "status": "proved", "theorems": ["Uwan.Sx126x.C71_frequency"], "note": ""},
{"property": "C72", "status": "proved", "theorems": ["Uwan.Sx127x.C72_power"], "note": ""},
{"property": "C73", "status": "proved", "theorems": ["Uwan.Sx126x.C73_power"], "note": ""},
{"property": "C74", "status": "proved", "theorems": ["Uwan.Sx127x.C74_setup"], "note": ""},
{"property": "C75", "status": "proved", "theorems": ["Uwan.Sx126x.C75_setup", "Uwan.Sx126x.C77_transmits", "Uwan.Sx126x.C84_receives"], "note": "The packet parameters are programmed by tx and rx."},
{"property": "C76", "status": "proved", "theorems": ["Uwan.Sx127x.C76_transmits"], "note": ""},
{"property": "C77", "status": "proved", "theorems": ["Uwan.Sx126x.C77_transmits"], "note": ""},
{"property": "C78", "status": "proved", "theorems": ["Uwan.Sx127x.C78_interrupts", "Uwan.Sx126x.C78_interrupts", "Uwan.Sx127x.C78_kept", "Uwan.Sx126x.C78_kept", "Uwan.Sx127x.C78_last", "Uwan.Sx126x.C78_last"], "note": ""},
{"property": "C79", "status": "proved", "theorems": ["Uwan.Sx127x.C79_reads", "Uwan.Sx126x.C79_reads"], "note": ""},
{"property": "C80", "status": "proved", "theorems": ["Uwan.Sx127x.C80_framed", "Uwan.Sx126x.C80_framed"], "note": ""},
{"property": "C81", "status": "proved", "theorems": ["Uwan.Sx126x.C81_woken", "Uwan.Sx126x.C81_sleeps"], "note": ""},
{"property": "C82", "status": "proved", "theorems": ["Uwan.Sx127x.C82_lora", "Uwan.Sx127x.C82_modes"], "note": ""},
{"property": "C83", "status": "partial", "theorems": ["Uwan.Sx127x.C83_init", "Uwan.Sx127x.C83_terminates", "Uwan.Sx126x.C83_init", "Uwan.Sx126x.C83_stuck"], "note": "Holds in full for the SX127x. SX126x init waits for BUSY without bound and only looks at the error flags: C83_stuck shows that it never ends if BUSY stays high."},
{"property": "C84", "status": "proved", "theorems": ["Uwan.Sx126x.C84_receives", "Uwan.Sx126x.C84_tcxo", "Uwan.Sx126x.C84_overflow"], "note": "C84_overflow shows that the bound of 262144 ms is needed."},
{"property": "C85", "status": "partial", "theorems": ["Uwan.Sx127x.C85_quality", "Uwan.Sx127x.C85_port_partial", "Uwan.Sx127x.C85_wrong_port", "Uwan.Sx126x.C79_reads"], "note": "The SX127x driver picks the RSSI offset by the transmit power instead of the frequency; C85_wrong_port is a counterexample."},
{"property": "C86", "status": "proved", "theorems": ["Uwan.Sx127x.C86_receives"], "note": ""},
{"property": "C87", "status": "partial", "theorems": ["Uwan.Sx127x.C87_safe_partial", "Uwan.Sx127x.C87_before_init", "Uwan.Sx126x.C87_safe", "Uwan.Sx126x.C87_null_init", "Uwan.Sx127x.C88_overflow"], "note": "Holds but for the signed shift in SX127x rand (C88_overflow), and for the SX126x after an init without HAL (C87_null_init)."},
{"property": "C88", "status": "partial", "theorems": ["Uwan.Sx127x.C88_rand_partial", "Uwan.Sx127x.C88_overflow", "Uwan.Sx126x.C88_rand"], "note": "The last bit of the SX127x is shifted into the sign bit of an int, undefined in C99; C88_overflow."},
{"property": "C89", "status": "proved", "theorems": ["Uwan.Sx127x.C89_board", "Uwan.Sx126x.C89_board"], "note": ""},
{"property": "C90", "status": "proved", "theorems": ["Uwan.Sx126x.C90_busy"], "note": ""},
{"property": "C91", "status": "partial", "theorems": ["Uwan.Sx126x.C77_transmits", "Uwan.Sx126x.C84_receives", "Uwan.Sx127x.C91_preamble_partial", "Uwan.Sx127x.C91_ignored"], "note": "The SX127x driver never programs the preamble length; it is right only for the reset value of 8 symbols."},
{"property": "C92", "status": "proved", "theorems": ["Uwan.Sx126x.C92_held"], "note": ""},
{"property": "C93", "status": "proved", "theorems": ["Uwan.Sx127x.C93_held"], "note": ""},
{"property": "C94", "status": "partial", "theorems": ["Uwan.Sx127x.C94_ldro_partial", "Uwan.Sx127x.C94_sf11_bw250", "Uwan.Sx126x.C94_ldro_partial", "Uwan.Sx126x.C94_sf11_bw250"], "note": "Proved for 125 kHz; both drivers decide by the spreading factor alone, so SF11 at 250 kHz is a counterexample."},
{"property": "C95", "status": "proved", "theorems": ["Uwan.C95_datarate"], "note": ""},
{"property": "C96", "status": "proved", "theorems": ["Uwan.Sx127x.C96_on_air", "Uwan.Sx126x.C96_on_air", "Uwan.Sx127x.C96_uplink", "Uwan.Sx126x.C96_uplink", "Uwan.Sx127x.C96_join", "Uwan.Sx126x.C96_join"], "note": ""},
{"property": "C97", "status": "partial", "theorems": ["Uwan.Sx127x.C97_power_partial", "Uwan.Sx126x.C97_power_partial", "Uwan.Sx127x.C97_refused", "Uwan.Sx126x.C97_refused", "Uwan.Sx127x.C97_wrong", "Uwan.Sx126x.C97_wrong"], "note": "Proved for the power range of the chip. The stack ignores that the driver refuses other powers; C97_wrong is a counterexample."},
{"property": "C98", "status": "proved", "theorems": ["Uwan.Sx127x.C98_window", "Uwan.Sx126x.C98_window"], "note": "The radio must not have been initialised between the transmission and the window. The data rate of the first window with an offset is C12."},
{"property": "C99", "status": "proved", "theorems": ["Uwan.Sx127x.C99_received", "Uwan.Sx126x.C99_received", "Uwan.Sx127x.C99_delivered", "Uwan.Sx126x.C99_delivered"], "note": ""},
{"property": "C100", "status": "proved", "theorems": ["Uwan.Sx127x.C100_asleep", "Uwan.Sx126x.C100_asleep"], "note": ""},
{"property": "C101", "status": "partial", "theorems": ["Uwan.Sx127x.C101_defined_partial", "Uwan.Sx126x.C101_defined_partial"], "note": "Missing are the exceptions of C61 and, on the SX127x, the signed shift of C88."},
{"property": "C102", "status": "proved", "theorems": ["Uwan.Sx127x.C102_awake"], "note": ""},
{"property": "C103", "status": "proved", "theorems": ["Uwan.C103_uplinks"], "note": ""},
{"property": "C104", "status": "proved", "theorems": ["Uwan.C104_downlinks"], "note": "Forged frames for the same address are excluded by the hypotheses; what they do is C30 and C33."},
{"property": "C105", "status": "proved", "theorems": ["Uwan.C105_join"], "note": ""},
{"property": "C106", "status": "partial", "theorems": ["Uwan.C106_report_partial", "Uwan.C106_send_inside", "Uwan.C106_join_inside"], "note": "Proved: reports are unaffected by calls that send nothing and keep the session. Uplinks and join-requests sent inside a callback overwrite the packet being processed, and a join is forgotten (counterexamples)."},
{"property": "C107", "status": "proved", "theorems": ["Uwan.C107_defined", "Uwan.C107_window", "Uwan.reenter_none"], "note": "The one exception is the null pointer of C61, which occurs with and without such calls."},
{"property": "C108", "status": "proved", "theorems": ["Uwan.C108_get_time"], "note": ""},
{"property": "C109", "status": "proved", "theorems": ["Uwan.C109_counters", "Uwan.C109_distinct"], "note": ""},
{"property": "C110", "status": "proved", "theorems": ["Uwan.C110_join", "Uwan.C110_send", "Uwan.C110_data", "Uwan.C110_accept", "Uwan.C110_nothing"], "note": ""},
{"property": "C111", "status": "partial", "theorems": ["Uwan.C111_join_partial", "Uwan.C111_leftovers"], "note": "Proved for data rate, counters and receive windows. Power, repetitions, RX2 frequency, channels and pending MAC answers are kept; C111_leftovers is a counterexample."},
{"property": "C112", "status": "partial", "theorems": ["Uwan.C112_error_partial", "Uwan.C112_lost"], "note": "Proved: an error code means no acknowledgement. The ACK bit of a downlink is not reported; C112_lost shows it makes no difference in any state."},
{"property": "C113", "status": "partial", "theorems": ["Uwan.C113_same_partial", "Uwan.C113_lead_partial", "Uwan.C113_high_water", "Uwan.C113_empty"], "note": "Proved for all histories and continuations up to the random number that picks the channel, and without empty packets, or with them if the last frames sent or read began with the same byte. C113_high_water: the same random number can pick different channels after all channels were disabled once. C113_empty: an empty packet is reported with the message type of the frame sent before."},
{"property": "C114", "status": "proved", "theorems": ["Uwan.C114_time"], "note": ""},
{"property": "C115", "status": "partial", "theorems": ["Uwan.C115_ru864_partial", "Uwan.C115_eu868"], "note": "EU868: RX2 is set to 868.1 MHz instead of 869.525 MHz"},
{"property": "C116", "status": "partial", "theorems": ["Uwan.C116_next_partial", "Uwan.C116_not_repeated"], "note": "answers are sent once"},
{"property": "C117", "status": "partial", "theorems": ["Uwan.C117_answered_partial", "Uwan.C117_no_effect", "Uwan.C117_ignored"], "note": "acknowledged but ignored"},
{"property": "C118", "status": "partial", "theorems": ["Uwan.C118_default_partial", "Uwan.C118_other_channel"], "note": "all enabled channels are used"},
{"property": "C119", "status": "partial", "theorems": ["Uwan.C119_others_partial", "Uwan.C119_not_removed", "Uwan.C119_default_changed"], "note": "channels cannot be removed, default channels can be changed"},
{"property": "C120", "status": "partial", "theorems": ["Uwan.C120_block_partial", "Uwan.C120_not_atomic"], "note": "requests are carried out one by one"},
{"property": "C121", "status": "proved", "theorems": ["Uwan.C121_secret", "Uwan.C121_alike"], "note": ""},
{"property": "C122", "status": "proved", "theorems": ["Uwan.C122_completes", "Uwan.C122_deadline", "Uwan.C122_sharp"], "note": "Calls of the stack take no time in the model; what they take belongs to the tolerances."},
{"property": "C123", "status": "partial", "theorems": ["Uwan.C123_memory", "Uwan.C123_safe", "Uwan.C123_none", "Uwan.C123_kept_partial", "Uwan.C123_last", "Uwan.C123_overwritten", "Uwan.C123_lost"], "note": "Safe memory accesses hold for all calls inside. The handling is unchanged when calls inside do not send, or send in the last command only. Otherwise the packet is overwritten while it is read: C123_overwritten (undefined behaviour), C123_lost (an answer is lost)."},
{"property": "C124", "status": "proved", "theorems": ["Uwan.Sx126x.C124_start", "Uwan.Sx126x.C124_lines", "Uwan.Sx127x.C124_start", "Uwan.Sx127x.C124_front"], "note": ""},
{"property": "C125", "status": "proved", "theorems": ["Uwan.Sx126x.C125_rest", "Uwan.Sx127x.C125_paced"], "note": ""},
{"property": "C126", "status": "partial", "theorems": ["Uwan.Sx126x.C126_image_partial", "Uwan.Sx126x.C126_other_band"], "note": "Holds from 860 to 876 MHz, which includes both regions of the library. The band is fixed: C126_other_band shows that it is wrong for every other frequency."},
{"property": "C127", "status": "partial", "theorems": ["Uwan.Sx127x.C127_masked", "Uwan.Sx126x.C127_armed"], "note": "Holds for the SX127x. The SX126x driver masks nothing: C127_armed shows that the chip listens with RxDone, CrcErr and Timeout routed to DIO1."},
{"property": "C128", "status": "partial", "theorems": ["Uwan.C128_known_partial", "Uwan.C128_lost", "Uwan.C128_astray"], "note": "Proved when the application's requests before the frame and the answers fit into the 15 bytes of FOpts; otherwise a command takes effect without an answer: C128_astray."},
{"property": "C129", "status": "partial", "theorems": ["Uwan.C129_slows_partial", "Uwan.C129_kept", "Uwan.C129_faint"], "note": "The data rate goes down to DR0 in the time given. Power and channels are never restored: C129_kept for all histories, C129_faint an example."},
{"property": "C130", "status": "proved", "theorems": ["Uwan.C130_windows", "Uwan.C130_listening", "Uwan.C130_echo"], "note": "C130_echo shows that the assumption that timers fire only when running is needed."},
{"property": "C131", "status": "partial", "theorems": ["Uwan.C131_uplink", "Uwan.C131_downlink_partial", "Uwan.C131_only", "Uwan.C131_untold"], "note": "Uplinks hold. Downlinks hold if the counter reached is put back; C131_only shows that no other value does, C131_untold that the application cannot know it from what it is told (the blocks handed to its crypto functions aside)."},
{"property": "C132", "status": "proved", "theorems": ["Uwan.C132_free", "Uwan.C132_hidden", "Uwan.C132_gone"], "note": ""},
{"property": "C133", "status": "partial", "theorems": ["Uwan.C133_draw", "Uwan.C133_even_partial", "Uwan.C133_share", "Uwan.C133_uneven", "Uwan.C133_stale"], "note": "C133_draw says for every history which channel a random number picks. C133_even_partial and C133_share: equal shares if the enabled channels are those below some index and some channel was enabled all the time since initialisation. C133_uneven: a disabled channel leaves its share to the next enabled one. C133_stale: channels are used unevenly after all were disabled once."},
{"property": "C134", "status": "proved", "theorems": ["Uwan.C134_passed", "Uwan.C134_gone"], "note": ""},
{"property": "C135", "status": "proved", "theorems": ["Uwan.C135_uplinks"], "note": ""},
{"property": "C136", "status": "partial", "theorems": ["Uwan.C136_genuine_partial", "Uwan.C136_order_partial", "Uwan.C136_zero"], "note": "A downlink with counter 0, the first of a session, is delivered again each time it is repeated until a later one arrives. Proved: whatever is delivered was sent by the network; order and at most once when counter 0 is not used; the counter stays away from 2^32."},
{"property": "C137", "status": "partial", "theorems": ["Uwan.Sx127x.C137_wide_partial", "Uwan.Sx127x.C137_narrow", "Uwan.Sx127x.C137_windows"], "note": "The driver always uses the setting for 500 kHz between 862 and 1020 MHz. Proved: right exactly there; wrong with any other bandwidth, so in every receive window of the stack."},
{"property": "C138", "status": "proved", "theorems": ["Uwan.Sx127x.C138_once", "Uwan.Sx126x.C138_once"], "note": ""},
{"property": "C139", "status": "partial", "theorems": ["Uwan.C139_genuine_partial", "Uwan.C139_replay", "Uwan.C139_reuse"], "note": "what holds: the join-accept was made by the network for this AppKey and the session is the one it makes with the device's own DevNonce; false of the code: a join-accept made for an earlier join-request is accepted again (a weakness of LoRaWAN 1.0 join-accepts, which do not carry the DevNonce)"},
{"property": "C140", "status": "partial", "theorems": ["Uwan.Sx126x.C140_sync", "Uwan.Sx127x.C140_public_partial", "Uwan.Sx127x.C140_private"], "note": "false for the SX127x in private networks: it is given 0x14, the upper register byte of the SX126x's encoding, instead of 0x12"},
{"property": "C141", "status": "partial", "theorems": ["Uwan.C141_opened_partial", "Uwan.C141_cut", "Uwan.C141_foreign"], "note": "false: any packet received in the first window, also one with a wrong checksum, another address or a wrong MIC, gives up the second"},
{"property": "C142", "status": "proved", "theorems": ["Uwan.C.C142_text_safe", "Uwan.C.C142_handlers", "Uwan.C.C142_null"], "note": "About the syntax trees printed from the C files. C142_null shows the exception. Shifts of a byte above 127 by 24 (C61) do not count as faults."},
{"property": "C143", "status": "proved", "theorems": ["Uwan.C.C143_text_history"], "note": "All functions of src/*.c and src/region/*.c; not src/ext (C147) and src/device."},
{"property": "C144", "status": "proved", "theorems": ["Uwan.C.C144_text_uplink"], "note": ""},
{"property": "C145", "status": "proved", "theorems": ["Uwan.C.C145_text_calls"], "note": ""},
{"property": "C146", "status": "proved", "theorems": ["Uwan.C.C146_text_downlink"], "note": ""},
{"property": "C147", "status": "proved", "theorems": ["Uwan.C.C147_text_history", "Uwan.C.C147_text_sound"], "note": "About the syntax trees printed from src/*.c, src/region/*.c and src/ext/clock_sync.c."},
{"property": "C148", "status": "proved", "theorems": ["Uwan.C.C148_text_safe", "Uwan.C.C148_text_shift", "Uwan.C.C148_faults"], "note": "C148_faults shows the exceptions."},
{"property": "C149", "status": "proved", "theorems": ["Uwan.C.C149_text_correction", "Uwan.C.C149_text_accepted"], "note": ""},
{"property": "C150", "status": "proved", "theorems": ["Uwan.C.C150_text_request", "Uwan.C.C150_text_answers"], "note": ""},
{"property": "C151", "status": "proved", "theorems": ["Uwan.C.Drv.C151_text_safe", "Uwan.C.Drv.C151_text_null", "Uwan.C.Drv.C151_text_members", "Uwan.C.Drv.C151_freq64", "Uwan.C.Drv.C151_text_calls"], "note": "About the syntax trees printed from src/device/sx127x.c; sx127x_set_freq (64-bit arithmetic) is not printed, the model stands for it and is shown to compute the same (C151_freq64)."},
{"property": "C152", "status": "proved", "theorems": ["Uwan.C.Drv.C152_text_held", "Uwan.C.Drv.C152_text_lora"], "note": ""},
{"property": "C153", "status": "proved", "theorems": ["Uwan.C.Drv.C153_text_once", "Uwan.C.Drv.C153_text_quality", "Uwan.C.Drv.C153_text_board"], "note": ""}
]}
