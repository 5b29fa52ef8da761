"""Write MANIFEST.json: which theorems settle which property."""
import json, os

P, Q = "proved", "partial"
CLAIMS = [
    ("C01", P, ["C01_uplink_frame"], ""),
    ("C02", P, ["C02_payload_decrypts"], ""),
    ("C03", P, ["C03_frame_length"], ""),
    ("C04", P, ["C04_length_error", "C04_reported_size"], ""),
    ("C05", P, ["C05_refused_no_effect"], ""),
    ("C06", P, ["C06_uplink_counter"], ""),
    ("C07", P, ["C07_no_block_reuse"], ""),
    ("C08", P, ["C08_one_exchange"], ""),
    ("C09", P, ["C09_alternate"], ""),
    ("C10", Q, ["C10_completes_partial", "C10_deadlock", "C10_late", "C10_stuck"],
     "Needs the second timer to be still running when the first window times out; C10_deadlock is a counterexample without that. "
     "C10_late and C10_stuck show what the first late time-out leads to: the radio and the timers are at rest, nothing more happens "
     "and every uplink is refused until the stack is initialised again. C122 derives the hypothesis about the second timer from latencies."),
    ("C11", P, ["C11_timers"], ""),
    ("C12", Q, ["C12_frequency", "C12_datarate_partial", "C12_backoff", "C12_join"],
     "The frequency part holds in full. With an offset the code starts from the data rate configured when the transmission "
     "ends; C12_backoff and C12_join are counterexamples."),
    ("C13", P, ["C13_rx2", "C13_only_windows"], ""),
    ("C14", P, ["C14_directed"], ""),
    ("C15", P, ["C15_band"], ""),
    ("C16", P, ["C16_enabled", "C16_no_channel"], ""),
    ("C17", P, ["C17_reachable", "C17_terminates"], ""),
    ("C18", P, ["C18_set", "C18_enable", "C18_untouched", "C18_last_set", "C18_last_disabled", "C18_legal"], ""),
    ("C19", Q, ["C19_init_partial", "C19_stale"],
     "uwan_init installs the defaults but leaves frequencies of other channels from before; C19_stale is a counterexample."),
    ("C20", P, ["C20_adr_bits", "C20_ack_request"], ""),
    ("C21", P, ["C21_backoff", "C21_reaches_dr0"], ""),
    ("C22", Q, ["C22_ack_bit_partial", "C22_forged_ack"],
     "The code sets the ACK flag before address, counter and MIC are checked; C22_forged_ack is a counterexample to the claim."),
    ("C23", Q, ["C23_sent_once_partial", "C23_not_repeated"],
     "NbTrans is stored but never used; C23_not_repeated is a counterexample to the claim."),
    ("C24", Q, ["C24_power_partial", "C24_wraps"],
     "Holds whenever the value fits int8_t; C24_wraps is a counterexample for a very low maximum."),
    ("C25", Q, ["C25_needs_init_partial", "C25_sends_unjoined"],
     "The code does not ask whether it is joined; C25_sends_unjoined is a counterexample to the claim."),
    ("C26", Q, ["C26_app_key_partial", "C26_port_zero"],
     "The port is not checked; C26_port_zero is a counterexample to the claim."),
    ("C27", P, ["C27_verdict", "C27_accepted"], ""),
    ("C28", P, ["C28_genuine"], ""),
    ("C29", P, ["C29_safe"], ""),
    ("C30", Q, ["C30_partial", "C30_forged"],
     "Counter, ACK flag and MAC commands are taken over before the MIC is checked; C30_forged is a counterexample to the claim."),
    ("C31", Q, ["C31_increasing_partial", "C31_no_replay_partial", "C31_zero_replay"],
     "A frame with counter 0 can be replayed (C31_zero_replay); the theorems ask for a non-zero counter away from 2^32."),
    ("C32", P, ["C32_counter"], ""),
    ("C33", Q, ["C33_partial", "C33_forged"],
     "A frame with a wrong MIC moves the counter; C33_forged is a counterexample to the claim."),
    ("C34", Q, ["C34_partial", "C34_foreign_ack"],
     "A confirmed frame for another device sets the ACK flag; C34_foreign_ack is a counterexample to the claim."),
    ("C35", Q, ["C35_fopts_partial", "C35_port0"],
     "FOpts are executed; a payload on port 0 is not, C35_port0 is a counterexample to the claim."),
    ("C36", P, ["C36_callback"], ""),
    ("C37", P, ["C37_signal", "C37_margin"], ""),
    ("C38", P, ["C38_join_request", "C38_keys"], ""),
    ("C39", P, ["C39_session", "C39_verdict", "C42_cflist"], ""),
    ("C40", P, ["C40_failed_join"], ""),
    ("C41", P, ["C41_is_joined"], ""),
    ("C42", P, ["C42_cflist"], ""),
    ("C43", P, ["C43_defaults_kept", "C42_cflist"], ""),
    ("C44", Q, ["C44_partial", "C44_stale_join"],
     "uwan_init does not forget a pending join; C44_stale_join is a counterexample to the claim."),
    ("C45", P, ["C45_bounded", "C45_request", "C45_answers", "C45_kept", "C45_init"], ""),
    ("C46", P, ["C46_carried", "C46_kept", "C46_once"], ""),
    ("C47", P, ["C47_decode", "C47_prefix", "C47_unique"], "That the parser ends and stays inside the field is C29_safe."),
    ("C48", P, ["C48_link_adr", "C48_bits"], ""),
    ("C49", Q, ["C49_mask_partial", "C49_refused_partial", "C49_cntl6", "C49_cntl1"],
     "The code looks only at bit 2 of ChMaskCntl; C49_cntl6 and C49_cntl1 are counterexamples to the claim."),
    ("C50", Q, ["C50_audible_partial", "C50_mute"],
     "An empty channel mask is accepted; C50_mute is a counterexample to the claim."),
    ("C51", P, ["C51_rx_param"], ""),
    ("C52", P, ["C52_new_channel"], ""),
    ("C53", P, ["C53_rx_timing", "C53_delay"], ""),
    ("C54", P, ["C54_dev_status", "C37_margin"], ""),
    ("C55", P, ["C55_skipped", "C55_link_check", "C55_duty_cycle"], ""),
    ("C56", P, ["C56_inverse", "C56_shift", "C56_device_time"], ""),
    ("C57", Q, ["C57_stamped_partial", "C57_on_air", "C57_join", "C57_refused"],
     "The stamp can be taken by another transmission or lost; C57_on_air, C57_join and C57_refused are counterexamples to the claim."),
    ("C58", Q, ["C58_answered_partial", "C58_dropped"],
     "With a full queue a command takes effect unanswered; C58_dropped is a counterexample to the claim."),
    ("C59", P, ["C59_setters"], ""),
    ("C60", Q, ["C60_rates_partial", "C60_dr256"],
     "Arguments of 256 and more are cut to 8 bits before the check; C60_dr256 is a counterexample to the claim."),
    ("C61", Q, ["C61_defined_partial", "C61_handlers_partial", "C61_null_callback", "C61_shift"],
     "C61_null_callback and C61_shift are the two counterexamples to the claim, and the only ones by C61_defined_partial."),
    ("C62", P, ["C62_contexts"], ""),
    ("C63", P, ["C63_time_request"], ""),
    ("C64", P, ["C64_applied", "C64_accepted", "C64_replay"], ""),
    ("C65", P, ["C65_answers", "C65_request", "C65_sent", "C65_handle"], ""),
    ("C66", Q, ["C66_defined_partial", "C66_exact", "C66_ends", "C66_overread", "C66_wild", "C66_shift"],
     "C66_overread, C66_wild and C66_shift are counterexamples to the claim; by C66_exact, with C67_overflow, they are all there are."),
    ("C67", Q, ["C67_periods_partial", "C67_wrong", "C67_overflow"],
     "Right only for periods 0, 1 and 2; C67_wrong and C67_overflow show the others wrong."),
    ("C68", P, ["C68_once", "C68_answers", "C68_stop"], ""),
    ("C69", P, ["C69_pending", "C69_resend", "C69_none", "C69_kept"], ""),
    ("C70", P, ["Sx127x.C70_frequency"], ""),
    ("C71", P, ["Sx126x.C71_frequency"], ""),
    ("C72", P, ["Sx127x.C72_power"], ""),
    ("C73", P, ["Sx126x.C73_power"], ""),
    ("C74", P, ["Sx127x.C74_setup"], ""),
    ("C75", P, ["Sx126x.C75_setup", "Sx126x.C77_transmits", "Sx126x.C84_receives"],
     "The packet parameters are programmed by tx and rx."),
    ("C76", P, ["Sx127x.C76_transmits"], ""),
    ("C77", P, ["Sx126x.C77_transmits"], ""),
    ("C78", P, ["Sx127x.C78_interrupts", "Sx126x.C78_interrupts", "Sx127x.C78_kept", "Sx126x.C78_kept", "Sx127x.C78_last", "Sx126x.C78_last"], ""),
    ("C79", P, ["Sx127x.C79_reads", "Sx126x.C79_reads"], ""),
    ("C80", P, ["Sx127x.C80_framed", "Sx126x.C80_framed"], ""),
    ("C81", P, ["Sx126x.C81_woken", "Sx126x.C81_sleeps"], ""),
    ("C82", P, ["Sx127x.C82_lora", "Sx127x.C82_modes"], ""),
    ("C83", Q, ["Sx127x.C83_init", "Sx127x.C83_terminates", "Sx126x.C83_init", "Sx126x.C83_stuck"],
     "Holds in full for the SX127x. SX126x init waits for BUSY without bound and only looks at the error flags: C83_stuck shows that it "
     "never ends if BUSY stays high."),
    ("C84", P, ["Sx126x.C84_receives", "Sx126x.C84_tcxo", "Sx126x.C84_overflow"],
     "C84_overflow shows that the bound of 262144 ms is needed."),
    ("C85", Q, ["Sx127x.C85_quality", "Sx127x.C85_port_partial", "Sx127x.C85_wrong_port", "Sx126x.C79_reads"],
     "The SX127x driver picks the RSSI offset by the transmit power instead of the frequency; C85_wrong_port is a counterexample."),
    ("C86", P, ["Sx127x.C86_receives"], ""),
    ("C87", Q, ["Sx127x.C87_safe_partial", "Sx127x.C87_before_init", "Sx126x.C87_safe", "Sx126x.C87_null_init", "Sx127x.C88_overflow"],
     "Holds but for the signed shift in SX127x rand (C88_overflow), and for the SX126x after an init without HAL (C87_null_init)."),
    ("C88", Q, ["Sx127x.C88_rand_partial", "Sx127x.C88_overflow", "Sx126x.C88_rand"],
     "The last bit of the SX127x is shifted into the sign bit of an int, undefined in C99; C88_overflow."),
    ("C89", P, ["Sx127x.C89_board", "Sx126x.C89_board"], ""),
    ("C90", P, ["Sx126x.C90_busy"], ""),
    ("C91", Q, ["Sx126x.C77_transmits", "Sx126x.C84_receives", "Sx127x.C91_preamble_partial", "Sx127x.C91_ignored"],
     "The SX127x driver never programs the preamble length; it is right only for the reset value of 8 symbols."),
    ("C92", P, ["Sx126x.C92_held"], ""),
    ("C93", P, ["Sx127x.C93_held"], ""),
    ("C94", Q, ["Sx127x.C94_ldro_partial", "Sx127x.C94_sf11_bw250", "Sx126x.C94_ldro_partial", "Sx126x.C94_sf11_bw250"],
     "Proved for 125 kHz; both drivers decide by the spreading factor alone, so SF11 at 250 kHz is a counterexample."),
    ("C95", P, ["C95_datarate"], ""),
    ("C96", P, ["Sx127x.C96_on_air", "Sx126x.C96_on_air", "Sx127x.C96_uplink", "Sx126x.C96_uplink", "Sx127x.C96_join", "Sx126x.C96_join"], ""),
    ("C97", Q, ["Sx127x.C97_power_partial", "Sx126x.C97_power_partial", "Sx127x.C97_refused", "Sx126x.C97_refused", "Sx127x.C97_wrong", "Sx126x.C97_wrong"],
     "Proved for the power range of the chip. The stack ignores that the driver refuses other powers; C97_wrong is a counterexample."),
    ("C98", P, ["Sx127x.C98_window", "Sx126x.C98_window"],
     "The radio must not have been initialised between the transmission and the window. The data rate of the first window with an offset is C12."),
    ("C99", P, ["Sx127x.C99_received", "Sx126x.C99_received", "Sx127x.C99_delivered", "Sx126x.C99_delivered"], ""),
    ("C100", P, ["Sx127x.C100_asleep", "Sx126x.C100_asleep"], ""),
    ("C101", Q, ["Sx127x.C101_defined_partial", "Sx126x.C101_defined_partial"],
     "Missing are the exceptions of C61 and, on the SX127x, the signed shift of C88."),
    ("C102", P, ["Sx127x.C102_awake"], ""),
    ("C103", P, ["C103_uplinks"], ""),
    ("C104", P, ["C104_downlinks"], "Forged frames for the same address are excluded by the hypotheses; what they do is C30 and C33."),
    ("C105", P, ["C105_join"], ""),
    ("C106", Q, ["C106_report_partial", "C106_send_inside", "C106_join_inside"],
     "Proved: reports are unaffected by calls that send nothing and keep the session. Uplinks and join-requests sent inside a callback overwrite the packet being processed, and a join is forgotten (counterexamples)."),
    ("C107", P, ["C107_defined", "C107_window", "reenter_none"], "The one exception is the null pointer of C61, which occurs with and without such calls."),
    ("C108", P, ["C108_get_time"], ""),
    ("C109", P, ["C109_counters", "C109_distinct"], ""),
    ("C110", P, ["C110_join", "C110_send", "C110_data", "C110_accept", "C110_nothing"], ""),
    ("C111", Q, ["C111_join_partial", "C111_leftovers"],
     "Proved for data rate, counters and receive windows. Power, repetitions, RX2 frequency, channels and pending MAC answers are kept; C111_leftovers is a counterexample."),
    ("C112", Q, ["C112_error_partial", "C112_lost"],
     "Proved: an error code means no acknowledgement. The ACK bit of a downlink is not reported; C112_lost shows it makes no difference in any state."),
    ("C113", Q, ["C113_same_partial", "C113_lead_partial", "C113_high_water", "C113_empty"],
     "Proved for all histories and continuations up to the random number that picks the channel, and without empty packets, or with them if the last frames sent or read began with the same byte. C113_high_water: the same random number can pick different channels after all channels were disabled once. C113_empty: an empty packet is reported with the message type of the frame sent before."),
    ("C114", P, ["C114_time"], ""),
    ("C115", Q, ["C115_ru864_partial", "C115_eu868"], "EU868: RX2 is set to 868.1 MHz instead of 869.525 MHz"),
    ("C116", Q, ["C116_next_partial", "C116_not_repeated"], "answers are sent once"),
    ("C117", Q, ["C117_answered_partial", "C117_no_effect", "C117_ignored"], "acknowledged but ignored"),
    ("C118", Q, ["C118_default_partial", "C118_other_channel"], "all enabled channels are used"),
    ("C119", Q, ["C119_others_partial", "C119_not_removed", "C119_default_changed"], "channels cannot be removed, default channels can be changed"),
    ("C120", Q, ["C120_block_partial", "C120_not_atomic"], "requests are carried out one by one"),
    ("C121", P, ["C121_secret", "C121_alike"], ""),
    ("C122", P, ["C122_completes", "C122_deadline", "C122_sharp"], "Calls of the stack take no time in the model; what they take belongs to the tolerances."),
    ("C123", Q, ["C123_memory", "C123_safe", "C123_none", "C123_kept_partial", "C123_last", "C123_overwritten", "C123_lost"],
     "Safe memory accesses hold for all calls inside. The handling is unchanged when calls inside do not send, or send in the last command only. Otherwise the packet is overwritten while it is read: C123_overwritten (undefined behaviour), C123_lost (an answer is lost)."),
    ("C124", P, ["Sx126x.C124_start", "Sx126x.C124_lines", "Sx127x.C124_start", "Sx127x.C124_front"], ""),
    ("C125", P, ["Sx126x.C125_rest", "Sx127x.C125_paced"], ""),
    ("C126", Q, ["Sx126x.C126_image_partial", "Sx126x.C126_other_band"],
     "Holds from 860 to 876 MHz, which includes both regions of the library. The band is fixed: C126_other_band shows that it is wrong for every other frequency."),
    ("C127", Q, ["Sx127x.C127_masked", "Sx126x.C127_armed"],
     "Holds for the SX127x. The SX126x driver masks nothing: C127_armed shows that the chip listens with RxDone, CrcErr and Timeout routed to DIO1."),
    ("C128", Q, ["C128_known_partial", "C128_lost", "C128_astray"],
     "Proved when the application's requests before the frame and the answers fit into the 15 bytes of FOpts; otherwise a command takes effect without an answer: C128_astray."),
    ("C129", Q, ["C129_slows_partial", "C129_kept", "C129_faint"],
     "The data rate goes down to DR0 in the time given. Power and channels are never restored: C129_kept for all histories, C129_faint an example."),
    ("C130", P, ["C130_windows", "C130_listening", "C130_echo"], "C130_echo shows that the assumption that timers fire only when running is needed."),
    ("C131", Q, ["C131_uplink", "C131_downlink_partial", "C131_only", "C131_untold"], "Uplinks hold. Downlinks hold if the counter reached is put back; C131_only shows that no other value does, C131_untold that the application cannot know it from what it is told (the blocks handed to its crypto functions aside)."),
    ("C132", P, ["C132_free", "C132_hidden", "C132_gone"], ""),
    ("C133", Q, ["C133_draw", "C133_even_partial", "C133_share", "C133_uneven", "C133_stale"],
     "C133_draw says for every history which channel a random number picks. C133_even_partial and C133_share: equal shares if the enabled channels are those below some index and some channel was enabled all the time since initialisation. C133_uneven: a disabled channel leaves its share to the next enabled one. C133_stale: channels are used unevenly after all were disabled once."),
    ("C134", P, ["C134_passed", "C134_gone"], ""),
    ("C135", P, ["C135_uplinks"], ""),
    ("C136", Q, ["C136_genuine_partial", "C136_order_partial", "C136_zero"], "A downlink with counter 0, the first of a session, is delivered again each time it is repeated until a later one arrives. Proved: whatever is delivered was sent by the network; order and at most once when counter 0 is not used; the counter stays away from 2^32."),
    ("C137", Q, ["Sx127x.C137_wide_partial", "Sx127x.C137_narrow", "Sx127x.C137_windows"], "The driver always uses the setting for 500 kHz between 862 and 1020 MHz. Proved: right exactly there; wrong with any other bandwidth, so in every receive window of the stack."),
    ("C138", P, ["Sx127x.C138_once", "Sx126x.C138_once"], ""),
    ("C139", Q, ["C139_genuine_partial", "C139_replay", "C139_reuse"], "what holds: the join-accept was made by the network for this AppKey and the session is the one it makes with the device's own DevNonce; false of the code: a join-accept made for an earlier join-request is accepted again (a weakness of LoRaWAN 1.0 join-accepts, which do not carry the DevNonce)"),
    ("C140", Q, ["Sx126x.C140_sync", "Sx127x.C140_public_partial", "Sx127x.C140_private"], "false for the SX127x in private networks: it is given 0x14, the upper register byte of the SX126x's encoding, instead of 0x12"),
    ("C141", Q, ["C141_opened_partial", "C141_cut", "C141_foreign"], "false: any packet received in the first window, also one with a wrong checksum, another address or a wrong MIC, gives up the second"),
    ("C142", P, ["C.C142_text_safe", "C.C142_handlers", "C.C142_null"], "About the syntax trees printed from the C files. C142_null shows the exception. Shifts of a byte above 127 by 24 (C61) do not count as faults."),
    ("C143", P, ["C.C143_text_history"], "All functions of src/*.c and src/region/*.c; not src/ext (C147) and src/device."),
    ("C144", P, ["C.C144_text_uplink"], ""),
    ("C145", P, ["C.C145_text_calls"], ""),
    ("C146", P, ["C.C146_text_downlink"], ""),
    ("C147", P, ["C.C147_text_history", "C.C147_text_sound"], "About the syntax trees printed from src/*.c, src/region/*.c and src/ext/clock_sync.c."),
    ("C148", P, ["C.C148_text_safe", "C.C148_text_shift", "C.C148_faults"], "C148_faults shows the exceptions."),
    ("C149", P, ["C.C149_text_correction", "C.C149_text_accepted"], ""),
    ("C150", P, ["C.C150_text_request", "C.C150_text_answers"], ""),
    ("C151", P, ["C.Drv.C151_text_safe", "C.Drv.C151_text_null", "C.Drv.C151_text_members", "C.Drv.C151_freq64", "C.Drv.C151_text_calls"], "About the syntax trees printed from src/device/sx127x.c; sx127x_set_freq (64-bit arithmetic) is not printed, the model stands for it and is shown to compute the same (C151_freq64)."),
    ("C152", P, ["C.Drv.C152_text_held", "C.Drv.C152_text_lora"], ""),
    ("C153", P, ["C.Drv.C153_text_once", "C.Drv.C153_text_quality", "C.Drv.C153_text_board"], ""),
]

out = os.path.join(os.path.dirname(__file__), "..", "MANIFEST.json")
with open(out, "w") as f:
    rows = [json.dumps({"property": p, "status": s, "theorems": ["Uwan." + t for t in ts], "note": n})
            for p, s, ts, n in CLAIMS]
    f.write('{"claims": [\n' + ",\n".join(rows) + "\n]}\n")
