{"id": "C01", "title": "Every accepted uplink is the LoRaWAN 1.0 frame it should be", "statement": "When uwan_send_frame returns UWAN_ERR_NO, exactly one frame is handed to the radio, and an independent LoRaWAN 1.0 parser reads back from it: the right message type (confirmed/unconfirmed), major version 0, the session's DevAddr, the low 16 bits of the uplink counter, FOpts equal to the queued MAC bytes with the matching FOptsLen, the port, and a 4-byte MIC equal to the first 4 bytes of CMAC(NwkSKey, B0 | frame) for the full 32-bit counter and direction 0.", "quantifier": "every session, port, payload, confirm flag, MAC queue content, random draw and every block cipher / CMAC implementation", "why_tests_cant": "the frame depends on keys, counters, queue content and payload length; tests compare one literal frame", "anchors": ["src/stack.c:uwan_send_frame", "src/stack.c:calc_mic", "src/mac.c:mac_get_payload"]}
{"id": "C02", "title": "The network can decrypt every uplink payload", "statement": "For every accepted uplink with a non-empty payload, decrypting the payload field with AppSKey as LoRaWAN section 4.3.3 prescribes (byte k is XORed with byte k mod 16 of AES(AppSKey, A_(k/16+1)), direction 0) gives back exactly the bytes passed to uwan_send_frame.", "quantifier": "every payload length the API accepts, every content, every counter value, every block cipher", "why_tests_cant": "block boundaries and counter bytes give too many combinations; the unit test uses a 4-byte payload and an XOR cipher", "anchors": ["src/stack.c:encrypt_payload", "src/stack.c:uwan_send_frame"]}
{"id": "C03", "title": "No uplink overruns the frame buffer or the data-rate limit", "statement": "Every frame handed to the radio by uwan_send_frame has at most N(DR)+13 bytes, where N(DR) is 51,51,51,115,222,222 for DR0..DR5, hence never more than 235 bytes and never more than the 255-byte frame buffer; a join-request has exactly 23 bytes.", "quantifier": "every reachable state of the stack (any call history) and every request", "why_tests_cant": "the bound depends on the joint history of DR, ADR back-off and MAC queue", "anchors": ["src/stack.c:uwan_send_frame", "src/stack.c:uwan_get_max_payload_size", "src/stack.c:uwan_join"]}
{"id": "C04", "title": "uwan_get_max_payload_size is the exact limit", "statement": "In an idle stack with an enabled channel, uwan_send_frame refuses a payload with UWAN_ERR_MSG_LEN exactly when it is longer than uwan_get_max_payload_size() or when there is nothing to send (no payload and no queued MAC bytes); the reported size is N(DR) minus the queued MAC bytes.", "quantifier": "every reachable state and every payload length 0..255", "why_tests_cant": "boundary depends on data rate and on queued MAC bytes", "anchors": ["src/stack.c:uwan_get_max_payload_size", "src/stack.c:uwan_send_frame"]}
{"id": "C05", "title": "A refused uplink or join has no effect", "statement": "When uwan_send_frame or uwan_join returns an error, nothing is sent to the radio, no callback or timer is touched, and the stack behaves afterwards exactly as if the call had not been made.", "quantifier": "every reachable state, every argument, every error cause", "why_tests_cant": "tests check one refusal and only its return code", "anchors": ["src/stack.c:uwan_send_frame", "src/stack.c:uwan_join"]}
{"id": "C06", "title": "The uplink counter advances by one per accepted uplink and by nothing else", "statement": "Within a session the k-th accepted uplink carries counter start+k (mod 2^32; its low 16 bits on air, all 32 bits in the MIC and in the encryption blocks), whatever other calls, timer and radio events, downlinks, join attempts that fail and refused sends happen in between.", "quantifier": "every call history inside one session", "why_tests_cant": "quantifies over unbounded interleavings of API calls and radio events", "anchors": ["src/stack.c:uwan_send_frame", "src/stack.c:uwan_set_session"]}
{"id": "C07", "title": "No uplink counter (key stream) is reused within a session", "statement": "Any two different uplinks accepted in the same session, as long as fewer than 2^32 have been sent, use different 32-bit counters, so no encryption block A_i is ever encrypted twice for two different frames.", "quantifier": "every history inside one session with fewer than 2^32 uplinks", "why_tests_cant": "no test can run 2^32 uplinks or all interleavings", "anchors": ["src/stack.c:uwan_send_frame", "src/stack.c:encrypt_payload"]}
{"id": "C08", "title": "Only one exchange at a time", "statement": "From an accepted uwan_send_frame/uwan_join until its downlink_callback, every further uwan_send_frame or uwan_join returns UWAN_ERR_STATE and transmits nothing (uwan_init excepted); a stack that was never initialised refuses them too.", "quantifier": "every history of API calls, timer callbacks and radio events", "why_tests_cant": "quantifies over all interleavings", "anchors": ["src/stack.c:uwan_send_frame", "src/stack.c:uwan_join", "src/stack.c:evt_handler"]}
{"id": "C09", "title": "Each exchange reports exactly one outcome at most, and outcomes never appear without an exchange", "statement": "Between two consecutive initialisations, transmissions and downlink_callback invocations strictly alternate, starting with a transmission.", "quantifier": "every history of API calls, timer callbacks (any timer, any time) and radio events (any mask, any time)", "why_tests_cant": "spurious, duplicated and reordered interrupts cannot be enumerated by tests", "anchors": ["src/stack.c:evt_handler", "src/stack.c:handle_downlink"]}
{"id": "C10", "title": "Every exchange completes", "statement": "Once a frame has been transmitted, as long as the radio reports the end of each operation it was told to start and armed timers fire, the application gets its downlink_callback and the stack becomes idle again, after a bounded number of environment events.", "quantifier": "every schedule of timer expiries and radio interrupts", "why_tests_cant": "liveness over all schedules", "anchors": ["src/stack.c:evt_handler", "src/stack.c:uwan_timer_callback"]}
{"id": "C11", "title": "Receive windows are timed from the configuration", "statement": "On end of transmission both window timers are started: RX1 after the configured receive delay (1..15 s) and RX2 exactly one second later; for a join after 5 s and 6 s. The delays are those in force when the frame was sent.", "quantifier": "every history; every configured delay; OTAA and ABP", "why_tests_cant": "depends on history of RXTimingSetupReq, join-accept and API settings", "anchors": ["src/stack.c:evt_handler", "src/stack.c:uwan_set_rx1_delay", "src/mac.c:rx_timing_setup"]}
{"id": "C12", "title": "The first receive window listens on the uplink frequency at the offset data rate", "statement": "Whenever the radio is told to receive in the first window, its frequency is the one the uplink was sent on and its data rate is the data rate the uplink was sent with, lowered by the configured RX1 offset but not below DR0.", "quantifier": "every history between the uplink and the window, every offset and data rate", "why_tests_cant": "depends on ADR history and on what is called while the exchange is running", "anchors": ["src/stack.c:evt_handler", "src/stack.c:uwan_timer_callback", "src/adr.c:adr_handle_uplink"]}
{"id": "C13", "title": "The second receive window listens on the configured RX2 channel", "statement": "Whenever the radio is told to receive in the second window, it is tuned to the RX2 frequency and data rate that were configured (by region defaults, uwan_set_rx2, join-accept or RXParamSetupReq) when the first window timed out.", "quantifier": "every history", "why_tests_cant": "depends on configuration history", "anchors": ["src/stack.c:evt_handler", "src/stack.c:uwan_timer_callback", "src/stack.c:uwan_set_rx2"]}
{"id": "C14", "title": "Radio direction settings always match the operation", "statement": "Every transmission happens with non-inverted IQ and every reception with inverted IQ; both always with coding rate 4/5, 8 preamble symbols, CRC on, explicit header, bandwidth 125 kHz and a spreading factor from SF7..SF12.", "quantifier": "every history of calls and events", "why_tests_cant": "the settings are sticky state spread over five functions", "anchors": ["src/stack.c:uwan_send_frame", "src/stack.c:uwan_join", "src/stack.c:evt_handler", "src/stack.c:uwan_init"]}
{"id": "C15", "title": "The radio is never tuned outside 860-870 MHz", "statement": "Every frequency ever passed to the radio's set_frequency lies in 860000000..870000000 Hz, whatever the network sends (CFList, NewChannelReq, RXParamSetupReq, forged or not) and whatever the application configures.", "quantifier": "every history, every received byte string", "why_tests_cant": "adversarial inputs and histories", "anchors": ["src/channels.c:uwan_set_channel", "src/stack.c:uwan_set_rx2", "src/stack.c:is_valid_frequency", "src/region/common.c:region_86x_handle_cflist"]}
{"id": "C16", "title": "Uplinks use enabled channels only", "statement": "Every uplink and join-request is sent on the frequency of a channel that is enabled at that moment, and uwan_send_frame/uwan_join on an idle stack report UWAN_ERR_CHANNEL exactly when no channel is enabled.", "quantifier": "every reachable channel configuration and every random number", "why_tests_cant": "2^16 masks times histories times random draws", "anchors": ["src/channels.c:channels_get_next", "src/channels.c:uw_channels_max_count"]}
{"id": "C17", "title": "No enabled channel is starved", "statement": "For every enabled channel there is a random draw that selects it; for every random draw the channel search terminates after at most 16 probes.", "quantifier": "every reachable channel configuration", "why_tests_cant": "all masks and all start points", "anchors": ["src/channels.c:channels_get_next"]}
{"id": "C18", "title": "The channel table behaves like a map with an enabled set", "statement": "After any sequence of uwan_set_channel, uwan_enable_channel and mask commands, a channel's frequency is the last valid one set for it, it is enabled exactly if the last effective operation on it enabled it, operations on one index never affect another index, and out-of-range indices, undefined channels and invalid frequencies are refused without effect.", "quantifier": "every sequence of channel operations", "why_tests_cant": "bit-mask and high-water-mark bookkeeping over unbounded histories", "anchors": ["src/channels.c:uwan_set_channel", "src/channels.c:uwan_enable_channel", "src/channels.c:channels_enable_all"]}
{"id": "C19", "title": "Initialisation installs exactly the regional default channels", "statement": "After uwan_init exactly the region's default channels are enabled (EU868: 868.1/868.3/868.5 MHz, RU864: 868.9/869.1 MHz) with the regional RX2 settings and a 1 s receive delay, and no other channel is defined: a network request enabling any other channel is refused.", "quantifier": "every state before uwan_init, both regions", "why_tests_cant": "depends on everything that happened before a re-initialisation", "anchors": ["src/stack.c:uwan_init", "src/channels.c:channels_init", "src/region/eu868.c:eu868_init", "src/region/ru864.c:ru864_init"]}
{"id": "C20", "title": "ADR bits of the uplink header are right", "statement": "Each accepted uplink has the ADR bit set exactly when ADR is enabled, and the ADRACKReq bit set exactly when ADR is enabled, the session data rate is not DR0 and at least the configured limit of uplinks went out since the last accepted downlink, ADR enable or back-off step (fewer than 2^32 uplinks in that period).", "quantifier": "every history", "why_tests_cant": "counter history is unbounded", "anchors": ["src/adr.c:adr_get_req_bit", "src/adr.c:adr_handle_uplink", "src/adr.c:adr_handle_downlink", "src/stack.c:uwan_send_frame"]}
{"id": "C21", "title": "ADR back-off lowers the data rate one step at a time and only when due", "statement": "An accepted uplink lowers the session data rate by exactly one step when it is the (limit+delay+1)-th one since the last accepted downlink/reset and the data rate is above DR0, and otherwise leaves it alone; the data rate never goes below DR0; after enough unanswered uplinks DR0 is always reached.", "quantifier": "every limit, delay, data rate and number of uplinks", "why_tests_cant": "unbounded number of uplinks and all parameter values", "anchors": ["src/adr.c:adr_handle_uplink", "src/adr.c:uwan_adr_setup_ack"]}
{"id": "C22", "title": "The ACK bit acknowledges exactly the confirmed downlinks received", "statement": "An uplink carries the ACK bit exactly when an authentic confirmed downlink addressed to this device has been accepted since the previous uplink.", "quantifier": "every history of downlinks (authentic or forged) and uplinks", "why_tests_cant": "adversarial frames and interleavings", "anchors": ["src/stack.c:handle_data_msg", "src/stack.c:uwan_send_frame"]}
{"id": "C23", "title": "Unconfirmed uplinks are repeated NbTrans times", "statement": "An unconfirmed uplink is transmitted NbTrans times, NbTrans being set by uwan_set_nb_trans or by LinkADRReq.", "quantifier": "every NbTrans 1..15 and every uplink", "why_tests_cant": "needs the whole exchange for every setting", "anchors": ["src/stack.c:uwan_set_nb_trans", "src/stack.c:uwan_send_frame", "include/uwan/stack.h:uwan_set_nb_trans"]}
{"id": "C24", "title": "Uplinks go out at the configured power", "statement": "Every uplink and join-request is transmitted with output power max EIRP - 2 * (TX power index) dBm, the index being the one last set by uwan_set_tx_power or an accepted LinkADRReq.", "quantifier": "every max EIRP (int8) and every index, both radios", "why_tests_cant": "all combinations of EIRP, index and radio range", "anchors": ["src/stack.c:apply_tx_power", "src/stack.c:uwan_set_max_eirp", "src/device/sx127x.c:sx127x_set_power", "src/device/sx126x.c:sx126x_set_power"]}
{"id": "C25", "title": "No data uplink without an activated session", "statement": "uwan_send_frame does not transmit while the stack is not activated (uwan_is_joined() is false).", "quantifier": "every history", "why_tests_cant": "needs all histories before activation", "anchors": ["src/stack.c:uwan_send_frame", "src/stack.c:uwan_is_joined"]}
{"id": "C26", "title": "Only application ports carry application payload", "statement": "uwan_send_frame only transmits application payload under AppSKey on ports 1..223; port 0 is reserved for MAC commands encrypted with NwkSKey.", "quantifier": "every port 0..255", "why_tests_cant": "full port range times payloads", "anchors": ["src/stack.c:uwan_send_frame", "include/uwan/stack.h:uwan_send_frame"]}
{"id": "C27", "title": "The downlink verdict is exactly the documented check list", "statement": "For every byte string received in a data window the code passed to downlink_callback is determined by: length >= 12 (MSG_LEN), major version and data-down type (MSG_MHDR), DevAddr (DEV_ADDR), FOpts fitting (MSG_LEN), frame counter not equal to the last one (FCNT), MIC (MSG_MIC), in this order, and UWAN_ERR_NO exactly when all hold; a radio timeout or CRC error is reported as such with no data.", "quantifier": "every received byte string, every session state", "why_tests_cant": "256^n inputs", "anchors": ["src/stack.c:handle_data_msg", "src/stack.c:handle_downlink"]}
{"id": "C28", "title": "A genuine downlink is delivered unchanged", "statement": "If the network builds a data downlink per LoRaWAN 1.0 for this session with the next frame counter, any FOpts, any port and any payload that fits, then the application's callback gets UWAN_ERR_NO, the right message type, exactly that port and exactly that payload (decrypted with AppSKey for ports >= 1, NwkSKey for port 0), with the RSSI and SNR reported by the radio.", "quantifier": "every payload, port, FOpts, counter and key; every block cipher", "why_tests_cant": "full round trip over all inputs", "anchors": ["src/stack.c:handle_data_msg", "src/stack.c:encrypt_payload"]}
{"id": "C29", "title": "Parsing any received byte string stays inside the buffers", "statement": "Whatever bytes arrive in a receive window, of any length 0..255, the stack reads and writes only inside the received packet / frame buffer and processing terminates.", "quantifier": "every byte string, every reachable state", "why_tests_cant": "all inputs", "anchors": ["src/stack.c:handle_data_msg", "src/stack.c:handle_join_msg", "src/mac.c:mac_handle_commands"]}
{"id": "C30", "title": "A downlink with a wrong MIC has no effect", "statement": "A received data frame whose MIC does not verify changes nothing: no configuration, no counter, no channel, no MAC answer is queued and no MAC callback is invoked; the application only learns UWAN_ERR_MSG_MIC.", "quantifier": "every forged frame, every state", "why_tests_cant": "all forgeries", "anchors": ["src/stack.c:handle_data_msg"]}
{"id": "C31", "title": "A downlink is accepted at most once (no replay)", "statement": "Within a session, the counters of accepted data downlinks strictly increase, so an accepted downlink replayed later is never accepted again.", "quantifier": "every history of genuine and replayed frames in a session", "why_tests_cant": "all histories", "anchors": ["src/stack.c:handle_data_msg"]}
{"id": "C32", "title": "The 32-bit downlink counter is reconstructed correctly", "statement": "If the network's 32-bit downlink counter is ahead of the counter the stack last took over from a downlink by 1..16384 (C33 says what rejected frames do to it), the counter the stack uses to check the MIC and decrypt equals the network's counter, including across 16-bit roll-over; the first downlink of a session may carry any 16-bit counter.", "quantifier": "every 32-bit counter value and every gap 1..16384", "why_tests_cant": "2^32 counter values times 2^14 gaps", "anchors": ["src/stack.c:handle_data_msg"]}
{"id": "C33", "title": "A rejected frame does not disturb later genuine downlinks", "statement": "After any rejected downlink, the next genuine downlink (counter 1..16384 ahead of the last accepted one) is still accepted.", "quantifier": "every rejected frame followed by every genuine frame", "why_tests_cant": "pairs of adversarial and genuine frames", "anchors": ["src/stack.c:handle_data_msg"]}
{"id": "C34", "title": "Frames for other devices are ignored", "statement": "A data frame carrying another DevAddr is reported as UWAN_ERR_DEV_ADDR and leaves the stack's later behaviour unchanged.", "quantifier": "every frame with a foreign address, every state", "why_tests_cant": "all frames", "anchors": ["src/stack.c:handle_data_msg"]}
{"id": "C35", "title": "MAC commands sent in a port-0 payload are executed", "statement": "MAC commands that an authentic downlink carries in its FOpts field, or as payload on port 0, are executed in order.", "quantifier": "every authentic downlink", "why_tests_cant": "all command sequences", "anchors": ["src/stack.c:handle_data_msg", "src/mac.c:mac_handle_commands"]}
{"id": "C36", "title": "The application callback runs last, with the radio asleep and the stack idle", "statement": "Whenever downlink_callback is invoked the stack is idle, the radio has been put to sleep after its last other use, and nothing else happens after the callback in that event; so the application may start the next exchange from inside the callback.", "quantifier": "every history and every event", "why_tests_cant": "all paths to the callback", "anchors": ["src/stack.c:handle_downlink", "src/stack.c:evt_handler"]}
{"id": "C37", "title": "Signal quality reaches the application and the network", "statement": "The RSSI and SNR passed to the callback for a received packet are those the radio reported for it, and the demodulation margin answered to DevStatusReq is the SNR of the very packet that carried the request, as a 6-bit two's complement number.", "quantifier": "every SNR the drivers can report (-32..31)", "why_tests_cant": "full range, composition driver - stack", "anchors": ["src/stack.c:handle_data_msg", "src/mac.c:dev_status", "src/device/sx127x.c:sx127x_read_packet", "src/device/sx126x.c:sx126x_read_packet"]}
{"id": "C38", "title": "The join-request is the LoRaWAN 1.0 join-request", "statement": "An accepted uwan_join transmits exactly 23 bytes: MHDR 0, the 8 application EUI bytes as given, the 8 device EUI bytes reversed, the 16-bit DevNonce little-endian, and the first 4 bytes of CMAC(AppKey, those 19 bytes); the stack then is not joined.", "quantifier": "every EUI, key and random draw", "why_tests_cant": "all inputs", "anchors": ["src/stack.c:uwan_join"]}
{"id": "C39", "title": "A genuine join-accept establishes the right session", "statement": "If the network answers the join-request with a join-accept built per LoRaWAN 1.0 for AppKey (with or without CFList), the stack becomes joined with that DevAddr, both counters 0, NwkSKey/AppSKey = AES(AppKey, 01/02 | AppNonce | NetID | DevNonce | pad) using the DevNonce of the last join-request, and RX1 offset / RX2 data rate / receive delay from the message when valid.", "quantifier": "every AppNonce, NetID, DevAddr, DLSettings, RxDelay, CFList, key and cipher (with invertible block operation)", "why_tests_cant": "all inputs, cryptographic round trip", "anchors": ["src/stack.c:handle_join_msg", "src/stack.c:derive_session_key"]}
{"id": "C40", "title": "A failed join changes nothing but the joined flag", "statement": "A join attempt that ends with any error (timeout, CRC, wrong length, wrong header, wrong MIC) leaves keys, addresses, counters, channels, receive-window parameters and MAC queue as they were before uwan_join; the stack is not joined and can be used again.", "quantifier": "every received byte string and every state", "why_tests_cant": "all malformed join-accepts", "anchors": ["src/stack.c:handle_join_msg", "src/stack.c:uwan_join", "src/stack.c:handle_downlink"]}
{"id": "C41", "title": "uwan_is_joined tells the truth", "statement": "uwan_is_joined() is true exactly when, in the history, a session was established by uwan_set_session or a valid join-accept after the last uwan_init and the last accepted uwan_join.", "quantifier": "every history", "why_tests_cant": "all histories", "anchors": ["src/stack.c:uwan_is_joined", "src/stack.c:uwan_join", "src/stack.c:uwan_set_session", "src/stack.c:uwan_init"]}
{"id": "C42", "title": "CFList channels are installed exactly", "statement": "For a type-0 CFList, for each of the 5 entries: a zero frequency disables that channel, a frequency (x100 Hz) in 860-870 MHz defines and enables it, any other value leaves it unchanged; other CFList types change nothing.", "quantifier": "every 16-byte CFList, every channel table, both regions", "why_tests_cant": "2^128 lists", "anchors": ["src/region/common.c:region_86x_handle_cflist"]}
{"id": "C43", "title": "A CFList never touches default channels", "statement": "Processing any CFList leaves the region's default channels and every channel outside the 5 CFList slots exactly as they were.", "quantifier": "every CFList, every channel table", "why_tests_cant": "all lists", "anchors": ["src/region/common.c:region_86x_handle_cflist", "src/region/eu868.c:CFLIST_CH_FIRST", "src/region/ru864.c:CFLIST_CH_FIRST"]}
{"id": "C44", "title": "Re-initialisation abandons a pending join", "statement": "After uwan_init the first exchange is handled according to how it was started: a downlink answering uwan_send_frame is processed as a data downlink, one answering uwan_join as a join-accept.", "quantifier": "every state at the time of uwan_init", "why_tests_cant": "all interruption points", "anchors": ["src/stack.c:uwan_init", "src/stack.c:handle_downlink"]}
{"id": "C45", "title": "The MAC answer queue is a bounded FIFO of whole commands", "statement": "Queued MAC commands never exceed 15 bytes; a command is queued (call returns true) exactly when it fits entirely, in which case it is appended unchanged behind the earlier ones, and otherwise nothing is queued.", "quantifier": "every sequence of requests and commands", "why_tests_cant": "all histories", "anchors": ["src/mac.c:mac_enqueue", "src/mac.c:uwan_mac_link_check_req", "src/mac.c:uwan_mac_device_time_req"]}
{"id": "C46", "title": "Queued MAC commands go out exactly once with the next uplink", "statement": "The next accepted uplink carries all queued MAC bytes in order in FOpts and empties the queue; refused sends and joins keep the queue.", "quantifier": "every history", "why_tests_cant": "all interleavings", "anchors": ["src/stack.c:uwan_send_frame", "src/mac.c:mac_get_payload"]}
{"id": "C47", "title": "The MAC command parser executes exactly the well-formed prefix", "statement": "For every FOpts content the commands executed are the longest prefix of complete known commands (CID with its fixed payload length), in order, up to the first unknown CID, truncated command or command whose answer does not fit; the parser never reads past the field and always terminates.", "quantifier": "every FOpts byte string", "why_tests_cant": "256^15 inputs", "anchors": ["src/mac.c:mac_handle_commands", "src/mac.c:mac_commands"]}
{"id": "C48", "title": "LinkADRReq is applied all-or-nothing and answered truthfully", "statement": "For every LinkADRReq the answer's three bits say whether the data rate (<= DR5), the TX power index (<= 7) and the channel mask are acceptable; data rate, power, NbTrans and channel mask are all changed when all three are acceptable, and none otherwise; NbTrans 0 restores the default.", "quantifier": "every 4-byte LinkADRReq payload, every state", "why_tests_cant": "2^32 payloads times states", "anchors": ["src/adr.c:adr_handle_link_req", "src/region/common.c:region_86x_handle_adr_ch_mask"]}
{"id": "C49", "title": "ChMaskCntl of LinkADRReq is honoured", "statement": "LinkADRReq with ChMaskCntl 0 applies the mask to channels 0..15, ChMaskCntl 6 enables all defined channels, any other value is refused without effect (LoRaWAN regional parameters EU868/RU864).", "quantifier": "every ChMaskCntl 0..7, mask and channel table", "why_tests_cant": "all combinations", "anchors": ["src/adr.c:adr_handle_link_req", "src/region/common.c:region_86x_handle_adr_ch_mask"]}
{"id": "C50", "title": "The network cannot mute the device by an accepted LinkADRReq", "statement": "After an accepted LinkADRReq at least one channel is enabled.", "quantifier": "every LinkADRReq, every state", "why_tests_cant": "all masks", "anchors": ["src/region/common.c:region_86x_handle_adr_ch_mask"]}
{"id": "C51", "title": "RXParamSetupReq is applied all-or-nothing and answered truthfully", "statement": "The answer's bits say whether frequency (860-870 MHz), RX2 data rate (<= DR5) and RX1 offset (<= 5) are acceptable; all three are installed when all are acceptable, none otherwise.", "quantifier": "every 4-byte payload, every state", "why_tests_cant": "2^32 payloads", "anchors": ["src/mac.c:rx_param_setup"]}
{"id": "C52", "title": "NewChannelReq is answered truthfully", "statement": "The queued NewChannelAns has both bits set exactly when the channel was installed and enabled with the requested frequency; otherwise the channel table is unchanged. Accepted iff index < 16, frequency in 860-870 MHz and data-rate range DR0-DR5.", "quantifier": "every 5-byte payload, every state", "why_tests_cant": "2^40 payloads", "anchors": ["src/mac.c:new_channel"]}
{"id": "C53", "title": "RXTimingSetupReq sets the receive delay", "statement": "RXTimingSetupReq with value d (low 4 bits) sets the receive delay for following uplinks to d seconds, 1 second for 0, always in 1..15 s, with the second window one second later, and is acknowledged.", "quantifier": "every payload byte, every state", "why_tests_cant": "all values in all states", "anchors": ["src/mac.c:rx_timing_setup", "src/stack.c:uwan_set_rx1_delay"]}
{"id": "C54", "title": "DevStatusReq is answered with battery and margin", "statement": "DevStatusAns carries the byte returned by the application's battery callback (255 when there is none) and the 6-bit SNR margin with both high bits 0.", "quantifier": "every battery value, SNR and handler registration", "why_tests_cant": "all values", "anchors": ["src/mac.c:dev_status"]}
{"id": "C55", "title": "Unsupported and informational commands are skipped cleanly", "statement": "TxParamSetupReq and DlChannelReq change nothing, queue no answer and do not stop the commands after them; LinkCheckAns only reports margin and gateway count to the registered callback; DutyCycleReq only queues its acknowledgement.", "quantifier": "every payload, every state, every position in FOpts", "why_tests_cant": "all combinations", "anchors": ["src/mac.c:tx_param_setup", "src/mac.c:di_channel", "src/mac.c:link_check", "src/mac.c:duty_cycle"]}
{"id": "C56", "title": "GPS/Unix time conversion is exact and invertible", "statement": "utils_gps_to_unix and utils_unix_to_gps are inverse to each other on all 32-bit times, shift by 315964800-18 s, and DeviceTimeAns reports gps seconds + 315964782 (mod 2^32) and the fraction byte to the application.", "quantifier": "all 2^32 times, all payloads", "why_tests_cant": "2^32 values", "anchors": ["src/utils.c:utils_gps_to_unix", "src/utils.c:utils_unix_to_gps", "src/mac.c:device_time"]}
{"id": "C57", "title": "DeviceTimeAns is paired with the local time of the requesting uplink", "statement": "The device time handed to device_time_result is what get_device_time returned at the end of the transmission of the uplink that carried the DeviceTimeReq.", "quantifier": "every history of requests, uplinks and joins", "why_tests_cant": "all interleavings", "anchors": ["src/mac.c:uwan_mac_device_time_req", "src/mac.c:mac_on_tx_complete", "src/mac.c:device_time"]}
{"id": "C58", "title": "Every executed configuration command is answered", "statement": "Whenever a LinkADRReq, RXParamSetupReq, NewChannelReq, RXTimingSetupReq, DutyCycleReq or DevStatusReq takes effect, its answer is in the MAC queue.", "quantifier": "every command and every queue fill level", "why_tests_cant": "all fill levels", "anchors": ["src/mac.c:mac_handle_commands", "src/mac.c:mac_enqueue"]}
{"id": "C59", "title": "Setters validate their argument and reject without effect", "statement": "uwan_set_nb_trans accepts exactly 1..15, uwan_set_tx_power exactly 0..7, uwan_set_rx1_dr_offset exactly 0..5, uwan_set_rx1_delay exactly 1..15, uwan_set_rx2 exactly DR0..DR5 with 860-870 MHz; a rejected call changes nothing, an accepted one changes only its setting.", "quantifier": "every argument value, every state", "why_tests_cant": "full argument ranges and frame conditions", "anchors": ["src/stack.c:uwan_set_nb_trans", "src/stack.c:uwan_set_tx_power", "src/stack.c:uwan_set_rx1_dr_offset", "src/stack.c:uwan_set_rx1_delay", "src/stack.c:uwan_set_rx2"]}
{"id": "C60", "title": "Data rates always stay in the supported table", "statement": "In every reachable state the data rates used for uplinks, RX1 and RX2 are DR0..DR5, so no table lookup is ever out of bounds.", "quantifier": "every history, every argument of uwan_set_dr / uwan_set_rx2", "why_tests_cant": "all histories", "anchors": ["src/stack.c:uwan_set_dr", "src/stack.c:is_valid_dr", "src/adr.c:adr_handle_uplink"]}
{"id": "C61", "title": "No call history leads to undefined behaviour", "statement": "No sequence of API calls, timer callbacks and radio events leads to an out-of-bounds access, null-pointer call, non-terminating loop or undefined shift inside the stack.", "quantifier": "every history with API-conforming arguments", "why_tests_cant": "all histories", "anchors": ["src/stack.c", "src/mac.c", "src/channels.c", "src/adr.c"]}
{"id": "C62", "title": "Crypto contexts are never leaked or nested", "statement": "In every history each created AES or CMAC context is used and deleted before the next one is created, and none is left open at the end of a call or event.", "quantifier": "every history, every received byte string", "why_tests_cant": "all paths", "anchors": ["src/stack.c:encrypt_payload", "src/stack.c:calc_mic", "src/stack.c:derive_session_key", "src/stack.c:handle_join_msg"]}
{"id": "C63", "title": "Clock-sync time requests are well formed", "statement": "uwan_clock_sync_send_time_req sends, on port 202, the pending answers (if any) followed by AppTimeReq = 01, GPS time little-endian, and (AnsRequired<<4 | current token), the token being 0..15.", "quantifier": "every time, token, pending answer and flag", "why_tests_cant": "all combinations", "anchors": ["src/ext/clock_sync.c:uwan_clock_sync_send_time_req"]}
{"id": "C64", "title": "A clock correction is applied only for the current token, at most once", "statement": "set_clock_correction is called only for an AppTimeAns whose token equals the current one, with exactly the 32-bit signed value from the message, and the token then advances (mod 16), so the same answer replayed next is not applied again.", "quantifier": "every packet history", "why_tests_cant": "all packet sequences", "anchors": ["src/ext/clock_sync.c:handle_answ"]}
{"id": "C65", "title": "Clock-sync answers never overflow the answer buffer", "statement": "Whatever packet is received, at most 9 answer bytes are produced (buffer is 32), and answers plus time request fit the request buffer.", "quantifier": "every packet", "why_tests_cant": "all packets", "anchors": ["src/ext/clock_sync.c:handle_answ", "src/ext/clock_sync.c:uwan_clock_sync_send_time_req"]}
{"id": "C66", "title": "The clock-sync parser never reads outside the packet", "statement": "For every received packet the clock-sync parser reads only bytes of that packet, performs no undefined shift, and terminates.", "quantifier": "every packet", "why_tests_cant": "all packets", "anchors": ["src/ext/clock_sync.c:handle_answ"]}
{"id": "C67", "title": "The periodicity request means 128 * 2^Period seconds", "statement": "handle_app_time_periodicity_req is called with 128 * 2^Period seconds for every Period 0..15.", "quantifier": "every Period", "why_tests_cant": "the unit test checks one value", "anchors": ["src/ext/clock_sync.c:periodicity_from_period_id"]}
{"id": "C68", "title": "Each clock-sync command is executed at most once per packet", "statement": "Within one packet each of the four server commands is executed at most once, and processing stops at the first repetition.", "quantifier": "every packet", "why_tests_cant": "all packets", "anchors": ["src/ext/clock_sync.c:handle_answ"]}
{"id": "C69", "title": "Pending clock-sync answers live exactly until the next downlink", "statement": "Answers stay pending (and are resent by each send call) until the next downlink received without error replaces or clears them; errors leave them pending; without pending answers uwan_clock_sync_send_answ reports UWAN_ERR_STATE and sends nothing.", "quantifier": "every history of packets and sends", "why_tests_cant": "all histories", "anchors": ["src/ext/clock_sync.c:uwan_clock_sync_handle_time_answ", "src/ext/clock_sync.c:uwan_clock_sync_send_answ", "src/ext/clock_sync.c:uwan_clock_sync_is_answ_pending"]}
{"id": "C70", "title": "SX127x is tuned to the requested frequency", "statement": "set_frequency programs the three frequency registers with the largest multiple of 32 MHz/2^19 not above the requested frequency, for every frequency the stack can request (error below 62 Hz).", "quantifier": "every frequency up to 1023 MHz", "why_tests_cant": "all frequencies", "anchors": ["src/device/sx127x.c:sx127x_set_freq"]}
{"id": "C71", "title": "SX126x is tuned to the requested frequency", "statement": "set_frequency sends SetRfFrequency with the largest multiple of 32 MHz/2^25 not above the requested frequency, for every 32-bit frequency up to 4095 MHz, after one CalibrateImage command for 860-876 MHz.", "quantifier": "every frequency", "why_tests_cant": "all frequencies", "anchors": ["src/device/sx126x.c:sx126x_set_freq"]}
{"id": "C72", "title": "SX127x output power is what was asked for", "statement": "set_power accepts exactly -4..17 dBm and then programs a PA configuration whose nominal output is within 0.2 dB of the request; any other value is refused and nothing is written.", "quantifier": "every int8 power", "why_tests_cant": "all values", "anchors": ["src/device/sx127x.c:sx127x_set_power"]}
{"id": "C73", "title": "SX126x output power is what was asked for", "statement": "set_power accepts exactly -17..15 dBm (low power) or -9..22 dBm (high power) and then sends the PA configuration and TX parameters (ramp 40 us) for that power, sets the over-current limit and, for high power, applies the antenna-mismatch workaround of the datasheet (15.2) to the register value it read; any other value is refused and nothing is sent.", "quantifier": "every int8 power, both PA variants, every chip state", "why_tests_cant": "all values", "anchors": ["src/device/sx126x.c:sx126x_set_power"]}
{"id": "C74", "title": "SX127x modem setup is faithful", "statement": "setup programs the modem registers so that a reader of the datasheet decodes exactly the requested spreading factor, bandwidth, coding rate, header mode, CRC and IQ polarity, with low-data-rate optimisation on exactly for SF11/SF12.", "quantifier": "every parameter combination, every prior register content", "why_tests_cant": "all combinations times register states", "anchors": ["src/device/sx127x.c:sx127x_setup", "src/device/sx127x.c:lora_set_modem_conf1"]}
{"id": "C75", "title": "SX126x modem setup is faithful", "statement": "setup followed by tx or rx sends modulation and packet parameters that decode to exactly the requested spreading factor, bandwidth, coding rate, preamble length, header mode, CRC, IQ polarity and payload length.", "quantifier": "every parameter combination, every chip response", "why_tests_cant": "all combinations", "anchors": ["src/device/sx126x.c:sx126x_setup", "src/device/sx126x.c:set_packet_params"]}
{"id": "C76", "title": "SX127x transmits exactly the given bytes", "statement": "tx loads exactly the given bytes into the FIFO from address 0, sets the payload length to their number, unmasks only TxDone and enters TX mode last.", "quantifier": "every frame of 0..255 bytes, every register state", "why_tests_cant": "all frames", "anchors": ["src/device/sx127x.c:sx127x_tx"]}
{"id": "C77", "title": "SX126x transmits exactly the given bytes", "statement": "tx writes exactly the given bytes to the buffer at offset 0 with base address 0, announces their number in the packet parameters, applies the IQ workaround of the datasheet (15.4) to the register value it read, and issues SetTx last.", "quantifier": "every frame, every chip response", "why_tests_cant": "all frames", "anchors": ["src/device/sx126x.c:sx126x_tx"]}
{"id": "C78", "title": "No interrupt is lost or invented", "statement": "irq_handler reports to the stack exactly the TxDone/RxDone/Timeout/CrcError events the chip had flagged, and clears exactly the flags it has read (SX127x: the reported ones). It tells the stack last, with the flags cleared and the bus free, so that the stack may call the radio again from the event handler. No other call clears a flag or reports an event.", "quantifier": "every flag combination", "why_tests_cant": "all combinations", "anchors": ["src/device/sx127x.c:sx127x_irq_handler", "src/device/sx126x.c:sx126x_irq_handler"]}
{"id": "C79", "title": "read_packet never overruns the caller's buffer", "statement": "read_packet writes min(capacity, received length) bytes, the bytes the chip holds, into the caller's buffer and reports that size.", "quantifier": "every chip response and capacity", "why_tests_cant": "all chip responses", "anchors": ["src/device/sx127x.c:sx127x_read_packet", "src/device/sx126x.c:sx126x_read_packet"]}
{"id": "C80", "title": "SPI transactions are well framed", "statement": "In every driver call each byte is exchanged with chip-select asserted, each transaction starts with select and ends with deselect, transactions never nest, and chip-select is released on return.", "quantifier": "every driver call, every chip response", "why_tests_cant": "all chip responses", "anchors": ["src/device/sx127x.c", "src/device/sx126x.c"]}
{"id": "C81", "title": "A sleeping SX126x is always woken before use", "statement": "No command other than the wake-up GetStatus is ever sent to a sleeping SX126x, for any sequence of driver calls after init; the chip sleeps after sleep().", "quantifier": "every sequence of driver calls", "why_tests_cant": "all sequences", "anchors": ["src/device/sx126x.c:check_device", "src/device/sx126x.c:sx126x_sleep"]}
{"id": "C82", "title": "The SX127x stays in LoRa mode after init", "statement": "After a successful init every sequence of driver calls leaves the chip in LoRa mode; tx, rx, sleep and setup end in TX, RX (single/continuous), SLEEP and STANDBY mode respectively.", "quantifier": "every sequence of driver calls", "why_tests_cant": "all sequences", "anchors": ["src/device/sx127x.c:set_op_mode", "src/device/sx127x.c:sx127x_init"]}
{"id": "C83", "title": "Driver initialisation terminates and detects a missing chip", "statement": "SX127x init performs at most 255 calibration polls and fails when the version register is not 0x12 or calibration does not finish; SX126x init fails exactly when options or HAL are missing or the chip reports a device error.", "quantifier": "every chip behaviour", "why_tests_cant": "all chip behaviours", "anchors": ["src/device/sx127x.c:rx_calibartion", "src/device/sx127x.c:sx127x_init", "src/device/sx126x.c:sx126x_init"]}
{"id": "C84", "title": "SX126x timeouts are converted exactly", "statement": "rx with a timeout in ms programs timeout*64 ticks of 15.625 us for every timeout below 262144 ms, 0 for no timeout and 0xffffff for infinite; the TCXO start-up time is converted the same way for every 16-bit value.", "quantifier": "every timeout", "why_tests_cant": "all values", "anchors": ["src/device/sx126x.c:sx126x_rx", "src/device/sx126x.c:setup_tcxo"]}
{"id": "C85", "title": "Reported RSSI and SNR follow the datasheet", "statement": "read_packet reports SNR = raw/4 rounded toward zero for both chips, RSSI = -raw/2 for SX126x and raw-157 (779 MHz and above) or raw-164 (525 MHz and below) for SX127x.", "quantifier": "every raw byte", "why_tests_cant": "all values", "anchors": ["src/device/sx127x.c:sx127x_read_packet", "src/device/sx126x.c:sx126x_read_packet"]}
{"id": "C86", "title": "SX127x opens the requested receive window", "statement": "rx(len, symb_timeout, timeout) makes the SX127x listen: one single reception with the requested symbol timeout when timeout is 0, continuous reception otherwise, from an empty FIFO, with only the interrupts reception needs routed and unmasked.", "quantifier": "every argument and every chip response", "why_tests_cant": "all arguments and chip responses", "anchors": ["src/device/sx127x.c:sx127x_rx"]}
{"id": "C87", "title": "Driver calls are free of undefined behaviour", "statement": "After init, no sequence of driver calls with valid arguments dereferences a null pointer, overflows or shifts out of range, whatever the chip answers.", "quantifier": "every sequence of driver calls, every chip response", "why_tests_cant": "undefined behaviour is silent; all chip responses", "anchors": ["src/device/sx127x.c", "src/device/sx126x.c"]}
{"id": "C88", "title": "rand returns the chip's random bits", "statement": "rand returns 32 bits, each taken from its own reading of the chip's random source, without undefined behaviour.", "quantifier": "every chip response", "why_tests_cant": "randomness cannot be asserted on a sample; all readings", "anchors": ["src/device/sx127x.c:sx127x_rand", "src/device/sx126x.c:sx126x_rand"]}
{"id": "C89", "title": "Antenna switch and board I/O follow the radio", "statement": "When the HAL provides them: tx turns the antenna switch to TX before the transmitter starts and rx turns it to RX before the receiver starts, setup initialises the board I/O and sleep and init release it; no other call touches them, except that rand on the SX126x receives and sleeps.", "quantifier": "every sequence of driver calls, every chip response", "why_tests_cant": "hardware damage or deafness; all call sequences", "anchors": ["src/device/sx127x.c:sx127x_tx", "src/device/sx127x.c:sx127x_rx", "src/device/sx126x.c:sx126x_tx", "src/device/sx126x.c:sx126x_rx"]}
{"id": "C90", "title": "SX126x commands wait for BUSY", "statement": "Every SPI transaction with the SX126x is preceded by a reading of a low BUSY line with no other transaction in between.", "quantifier": "every driver call, every chip response", "why_tests_cant": "all chip responses and timings", "anchors": ["src/device/sx126x.c:wait_busy"]}
{"id": "C91", "title": "The requested preamble length is used", "statement": "Packets are sent and expected with the preamble length given to setup.", "quantifier": "every parameter set", "why_tests_cant": "all values and call orders", "anchors": ["src/device/sx127x.c:sx127x_setup", "src/device/sx126x.c:set_packet_params"]}
{"id": "C92", "title": "The SX126x holds the last requested configuration", "statement": "After every sequence of driver calls since a successful init the chip holds the last requested frequency, power, modulation and network sync word: no driver call disturbs what another one set.", "quantifier": "every sequence of driver calls", "why_tests_cant": "interference between calls; all sequences", "anchors": ["src/device/sx126x.c"]}
{"id": "C93", "title": "The SX127x holds the last requested configuration", "statement": "After every sequence of driver calls since a successful init the chip's registers hold the last requested frequency, power, modem settings and the driver's sync word for the network last asked for (whether that is the network's own word is C140): no driver call disturbs what another one set.", "quantifier": "every sequence of driver calls", "why_tests_cant": "interference between calls; all sequences", "anchors": ["src/device/sx127x.c"]}
{"id": "C94", "title": "Low-data-rate optimisation is used exactly when mandated", "statement": "setup switches low-data-rate optimisation on exactly when a symbol lasts longer than 16 ms, as both ends of the link must agree on it.", "quantifier": "every spreading factor and bandwidth", "why_tests_cant": "a mismatch shows only as packet loss against another implementation", "anchors": ["src/device/sx127x.c:sx127x_setup", "src/device/sx126x.c:sx126x_setup"]}
{"id": "C95", "title": "Frames go out at the right data rate", "statement": "A join-request is transmitted at the data rate last set with uwan_set_dr (DR0 at first), a data uplink at that one when ADR is off and at the session's data rate (set by the network or lowered by the back-off) when it is on; data rate n is spreading factor 12-n at 125 kHz.", "quantifier": "every history of API calls, timers and radio events", "why_tests_cant": "depends on ADR, join and MAC command history", "anchors": ["src/stack.c:uwan_send_frame", "src/stack.c:uwan_join", "src/stack.c:uwan_set_dr"]}
{"id": "C96", "title": "An accepted frame is on the air", "statement": "When uwan_send_frame or uwan_join returns success and the radio had been initialised, the chip is transmitting when the call returns: what it transmits is exactly the LoRaWAN frame (a gateway that parses and decrypts it gets the application's bytes), on the frequency of an enabled channel, at the frame's spreading factor, with normal IQ and the chosen sync word.", "quantifier": "every history of application calls, timers and interrupts, every chip response, both chips", "why_tests_cant": "the whole path from API to chip registers; stack tests mock the driver and driver tests mock the chip", "anchors": ["src/stack.c:uwan_send_frame", "src/stack.c:uwan_join", "src/device/sx127x.c:sx127x_tx", "src/device/sx126x.c:sx126x_tx"]}
{"id": "C97", "title": "The chip transmits at the configured power", "statement": "Every frame leaves the chip with output power max EIRP - 2 * (TX power index) dBm, within 0.2 dB.", "quantifier": "every history, every EIRP and index, both chips", "why_tests_cant": "combines MAC commands, API settings and driver limits", "anchors": ["src/stack.c:apply_tx_power", "src/device/sx127x.c:sx127x_set_power", "src/device/sx126x.c:sx126x_set_power"]}
{"id": "C98", "title": "The chip listens as the network expects", "statement": "When a receive window is opened the chip has been put into single reception with the short symbol timeout, inverted IQ and the chosen sync word, tuned to the window's frequency and spreading factor: the uplink's frequency for the first window, the configured ones for the second.", "quantifier": "every history of application calls, timers and interrupts, every chip response, both chips", "why_tests_cant": "whatever happens between uplink and window must not disturb the chip's settings", "anchors": ["src/stack.c:timer_callback", "src/device/sx127x.c:sx127x_rx", "src/device/sx126x.c:sx126x_rx"]}
{"id": "C99", "title": "What the chip receives reaches the application", "statement": "In a receive window the chip's interrupt flags alone decide between time-out, damaged packet and packet, and the packet processed is exactly what the chip has in its buffer; so a genuine in-step downlink received there is delivered to the application as the network built it.", "quantifier": "every history, every packet, every content of the chip's buffer, both chips", "why_tests_cant": "the whole path from chip registers to callback", "anchors": ["src/stack.c:evt_handler", "src/stack.c:handle_downlink", "src/device/sx127x.c:sx127x_irq_handler", "src/device/sx127x.c:sx127x_read_packet", "src/device/sx126x.c:sx126x_irq_handler", "src/device/sx126x.c:sx126x_read_packet"]}
{"id": "C100", "title": "The radio sleeps when an exchange is over", "statement": "Whenever the outcome of an exchange is reported to the application the chip has been put to sleep before.", "quantifier": "every history, every chip response, both chips", "why_tests_cant": "battery life depends on every path through the stack", "anchors": ["src/stack.c:evt_handler", "src/device/sx127x.c:sx127x_sleep", "src/device/sx126x.c:sx126x_sleep"]}
{"id": "C101", "title": "No chip response makes stack and driver misbehave", "statement": "With the radio initialised, no API call, timer or interrupt leads to undefined behaviour in stack or driver, whatever the chip answers on the bus.", "quantifier": "every history, every next operation, every chip response, both chips", "why_tests_cant": "all chip responses in all reachable states", "anchors": ["src/stack.c", "src/device/sx127x.c", "src/device/sx126x.c"]}
{"id": "C102", "title": "The SX127x data buffer is used only when awake", "statement": "Provided the application does not initialise the radio in the middle of an exchange, the FIFO of an SX127x, which is not accessible in sleep mode, is read and written only outside of sleep mode.", "quantifier": "every history, every chip response", "why_tests_cant": "depends on the order of sleep, standby, packet writes and reads in all exchanges", "anchors": ["src/stack.c", "src/device/sx127x.c"]}
{"id": "C103", "title": "The network server gets what the application sends", "statement": "A LoRaWAN 1.0 network server that knows the session's keys, address and first counter, and nothing else but the frames that reach it, reads out of them exactly the messages passed to uwan_send_frame in the uplinks that got through: in order, once each, with port, payload, confirmation flag and the pending MAC commands, whatever frames of other devices it hears in between and however many uplinks are lost, as long as it is never 65536 in a row. The application uses ports other than 0.", "quantifier": "every history of a session of up to 2^32 uplinks, every pattern of losses and foreign frames", "why_tests_cant": "sessions of any length; the 16-bit counter on air rolls over, MIC and encryption use 32 bits that the server has to guess", "anchors": ["src/stack.c:uwan_send_frame", "src/stack.c:calc_mic", "src/stack.c:encrypt_payload", "src/stack.c:uwan_set_session"]}
{"id": "C104", "title": "The application gets what the network server sends", "statement": "The downlinks a server sends in a session with increasing counters (at most 16384 apart) are, as far as they are heard in receive windows, all handed to the application with UWAN_ERR_NO, message type, port and payload, in order and once each, and nothing else is; whatever else happens in between: uplinks, settings, time-outs, CRC errors, frames for other devices.", "quantifier": "every history of a session without another join, every sequence of downlinks, every pattern of losses and foreign frames", "why_tests_cant": "sessions of any length, interleaved with any API calls; counters roll over", "anchors": ["src/stack.c:handle_data_msg", "src/stack.c:handle_downlink", "src/stack.c:evt_handler"]}
{"id": "C105", "title": "Joining brings both ends together", "statement": "After a join-request that the network server has received and a join-accept that the device has received, server and device are in the same session: the server, knowing only AppKey, the request and its own answer, understands all uplinks heard from then on, and the device delivers all downlinks.", "quantifier": "every history, every join-accept contents, every nonce, any traffic afterwards", "why_tests_cant": "two independent derivations of keys and counters have to agree for all nonces and contents", "anchors": ["src/stack.c:uwan_join", "src/stack.c:handle_join_msg", "src/stack.c:derive_session_key"]}
{"id": "C106", "title": "Calls made inside MAC callbacks act like calls made afterwards", "statement": "An application may call the stack from inside link_check_result, get_battery_level and device_time_result: what downlink_callback reports about the packet being processed is not affected, and a call that succeeds has the effect it has when made after the event.", "quantifier": "every reachable state, every packet, every sequence of calls inside each callback", "why_tests_cant": "all combinations of MAC commands in a packet, calls made in their callbacks, and packet contents", "anchors": ["src/stack.c:handle_data_msg", "src/stack.c:handle_downlink", "src/mac.c:mac_handle_commands", "src/stack.c:uwan_send_frame", "src/stack.c:uwan_join"]}
{"id": "C107", "title": "Calls made inside callbacks are memory safe", "statement": "Whatever public functions an application calls from inside its MAC callbacks (also uwan_init, uwan_join and uwan_send_frame, which reuse the buffer being processed), no operation accesses memory out of bounds, uses a null pointer or loops forever, unless it does so without these calls.", "quantifier": "every state reachable with such calls, every operation, every packet, every sequence of calls inside each callback", "why_tests_cant": "the frame is overwritten while it is being parsed, with any contents, at any command", "anchors": ["src/stack.c:evt_handler", "src/stack.c:handle_data_msg", "src/mac.c:mac_handle_commands", "src/mac.c:mac_on_tx_complete"]}
{"id": "C108", "title": "Calls inside get_device_time act like calls after the transmission", "statement": "When a transmission ends and the application's clock is read, calls the application makes inside get_device_time act, in effects and resulting behaviour, exactly as the same calls made right after the event.", "quantifier": "every reachable state, every sequence of calls", "why_tests_cant": "all sequences of API calls in all states", "anchors": ["src/mac.c:mac_on_tx_complete", "src/stack.c:evt_handler"]}
{"id": "C109", "title": "No uplink counter is used twice, whatever callbacks do", "statement": "From uwan_set_session to the next change of session, the data frames handed to the radio carry the session's address and consecutive counters starting with the given one, also if the application sends from inside its callbacks.", "quantifier": "every execution, every sequence of calls inside callbacks", "why_tests_cant": "executions of any length with calls nested at any point", "anchors": ["src/stack.c:uwan_send_frame", "src/stack.c:uwan_set_session", "src/stack.c:evt_handler"]}
{"id": "C110", "title": "Each key is used for its purpose only", "statement": "The AppKey is used for the MIC of join-requests and for join-accepts (decryption, MIC, session keys) and nothing else; the NwkSKey for the MIC of data frames and for payloads on port 0 of downlinks; the AppSKey for payloads on other ports. Each operation computes exactly what its frame requires, in that order, on inputs of the form the specification gives; rejected packets are not decrypted, and other operations compute nothing.", "quantifier": "every history, every packet received, every payload", "why_tests_cant": "key separation is about all computations ever made, for all keys and contents", "anchors": ["src/stack.c:uwan_join", "src/stack.c:uwan_send_frame", "src/stack.c:handle_data_msg", "src/stack.c:handle_join_msg", "src/stack.c:encrypt_payload", "src/stack.c:calc_mic"]}
{"id": "C111", "title": "A new session starts from the application's own settings", "statement": "When a join is accepted, what the previous network set by MAC commands (data rate, power, repetitions, channels, receive windows) is replaced by the application's defaults and the contents of the join-accept, and no answers to the previous network's commands are left.", "quantifier": "every history before the join, every join-accept", "why_tests_cant": "depends on everything any earlier session did", "anchors": ["src/stack.c:handle_join_msg", "src/stack.c:uwan_join"]}
{"id": "C112", "title": "The application learns whether a confirmed uplink was acknowledged", "statement": "After a confirmed uplink what downlink_callback reports tells whether the network acknowledged it: an error code means no acknowledgement arrived, and a downlink with the ACK bit is distinguishable from one without.", "quantifier": "every session, every genuine downlink", "why_tests_cant": "needs a comparison of the reports for all pairs of downlinks in all states", "anchors": ["src/stack.c:handle_data_msg", "src/stack.c:handle_downlink"]}
{"id": "C113", "title": "No hidden state: what a device does next follows from its session, settings and current exchange", "statement": "Two devices with the same session and keys, the same settings and the same stage of the current exchange behave the same from then on: the same calls, radio events and random numbers give the same results, frames, radio settings and reports. Nothing else of the past matters, such as the contents of earlier frames or the order in which settings were made.", "quantifier": "every pair of histories, every continuation", "why_tests_cant": "a relation between two executions of arbitrary length; a test compares particular runs", "anchors": ["src/stack.c:uw_frame", "src/stack.c:pkt_params", "src/stack.c:handle_downlink", "src/channels.c:uw_channels_max_count"]}
{"id": "C114", "title": "The clock is set to the server's time", "statement": "A device asks for the time with uwan_clock_sync_send_time_req. The time server, which gets only the frame, answers with the difference of the clocks. When the answer is received and passed to uwan_clock_sync_handle_time_answ, set_clock_correction is called once, and a clock changed by this amount shows the server's time.", "quantifier": "every history, every device and server time, every session, any answers waiting to be sent, any operations in between that do not start a new session, restart the package or correct the clock", "why_tests_cant": "runs through package, stack, encryption, server and back; depends on 64 bits of time and on everything that happened before", "anchors": ["src/ext/clock_sync.c:uwan_clock_sync_send_time_req", "src/ext/clock_sync.c:uwan_clock_sync_handle_time_answ", "src/ext/clock_sync.c:handle_answ", "src/stack.c:uwan_send_frame"]}
{"id": "C115", "title": "Default RX2 channel of the region", "statement": "From uwan_init until the application calls uwan_set_rx2 or the network changes it, the second receive window is opened on the frequency and data rate the LoRaWAN regional parameters name: 869.525 MHz DR0 for EU868, 869.1 MHz DR0 for RU864.", "quantifier": "every history after uwan_init in which nobody sets the second window", "why_tests_cant": "a test that looks at the number in the code repeats it; the window is reached over any sequence of calls", "anchors": ["src/region/eu868.c:eu868_init", "src/region/ru864.c:ru864_init", "src/stack.c:uwan_set_rx2"]}
{"id": "C116", "title": "RXParamSetupAns and RXTimingSetupAns are repeated until a downlink arrives", "statement": "The answer to an RXParamSetupReq or RXTimingSetupReq is in every accepted uplink until the device receives a downlink (LoRaWAN 1.0.2, 5.4 and 5.7).", "quantifier": "every history with any number of uplinks after the request", "why_tests_cant": "needs lost downlinks and several exchanges", "anchors": ["src/mac.c:rx_param_setup", "src/mac.c:rx_timing_setup", "src/mac.c:mac_get_payload"]}
{"id": "C117", "title": "DutyCycleReq is obeyed", "statement": "After a DutyCycleReq the device acknowledges it in the next uplink and keeps its share of transmission time below the limit.", "quantifier": "every history and every limit", "why_tests_cant": "the limit is a property of all later transmissions", "anchors": ["src/mac.c:duty_cycle", "src/stack.c:uwan_send_frame"]}
{"id": "C118", "title": "Join-requests use the default channels", "statement": "Join-requests are sent on the default channels of the region only.", "quantifier": "every history, every random number, every set of channels", "why_tests_cant": "depends on channels added in earlier sessions and on the random number", "anchors": ["src/stack.c:uwan_join", "src/channels.c:channels_get_next"]}
{"id": "C119", "title": "NewChannelReq: removing channels, default channels", "statement": "A NewChannelReq changes only the channel it names. With frequency 0 it removes the channel. The default channels of the region cannot be changed by it.", "quantifier": "every history, channel index, frequency and data rate range", "why_tests_cant": "requests and channel sets are unbounded in combination", "anchors": ["src/mac.c:new_channel", "src/channels.c:uwan_set_channel"]}
{"id": "C120", "title": "A block of LinkADRReq is carried out as a whole", "statement": "Of several LinkADRReq in a row in one frame either all are carried out, the last one deciding data rate, power and repetitions, or none.", "quantifier": "every history, every block of requests", "why_tests_cant": "the number of requests, their fields and the channels before are unbounded in combination", "anchors": ["src/mac.c:link_adr", "src/adr.c:adr_handle_link_req"]}
{"id": "C121", "title": "Keys reach the outside only through the cipher", "statement": "Two devices get the same calls, packets and events but different keys, and their ciphers compute the same with them. Nobody outside can tell them apart: return values, frames on the air, radio and timer calls, application callbacks and everything the cipher is asked to compute are the same. In particular no byte of a key gets into a frame, a callback or a decision other than as the result of a cipher call.", "quantifier": "every history, every pair of ciphers and keys computing the same, joins and ABP sessions included", "why_tests_cant": "compares two runs for all keys; a test sees one run and cannot show that a key byte has no influence", "anchors": ["src/stack.c:uwan_set_otaa_keys", "src/stack.c:uwan_set_session", "src/stack.c:encrypt_payload", "src/stack.c:calc_mic", "src/stack.c:handle_join_msg"]}
{"id": "C122", "title": "With timers and radio on time every exchange is over in bounded time", "statement": "Take times in microseconds, a timer callback at most J late (and never early), and a receive time-out reported at most W after the radio has listened for the symbols it was asked to. If J + W + 262144 < 1000000 (eight symbols at SF12, the second between the windows), then every accepted uplink or join-request completes: after at most five interrupts and timer expiries the result is reported, once, and as long as it is not reported a timer is running or the radio is busy. And it is over in time: once the delay of the second window after the end of the transmission, eight symbols and the tolerances have passed and nothing is overdue, the result has been reported. The bound is sharp: with J + W + 262144 = 1000000 the device can get stuck.", "quantifier": "for all timed histories of calls, interrupts and timer expiries in time, all configurations, keys, radio contents and tolerances", "why_tests_cant": "Whether a slow platform loses the second window depends on the spreading factor, the delays and the latencies together; a test runs one timing.", "anchors": ["src/stack.c:evt_handler", "src/stack.c:uwan_timer_callback", "src/stack.c:uwan_send_frame", "src/stack.c:uwan_join"]}
{"id": "C123", "title": "Sending from inside the clock package's callbacks does not change how the packet is handled", "statement": "An application hands packets to uwan_clock_sync_handle_time_answ from inside its downlink callback, and may call the library again from inside the callbacks the package then makes, for example ask for the time with uwan_clock_sync_send_time_req when told to resynchronise. Whatever it calls there, no memory outside the buffers is accessed, the package makes the calls it would make otherwise, in the same order, and holds the same answers.", "quantifier": "all reachable states, packets, positions in the frame buffer, and lists of calls made inside each of the four callbacks", "why_tests_cant": "The packet lives in the buffer the next frame is built in. Whether a call inside overwrites bytes still to be read depends on the position of the command in the packet, on the length of the packet, and on what the new frame contains, key and time included.", "anchors": ["src/ext/clock_sync.c:uwan_clock_sync_handle_time_answ", "src/ext/clock_sync.c:handle_answ", "src/ext/clock_sync.c:uwan_clock_sync_send_time_req", "src/stack.c:uwan_send_frame", "src/stack.c:uw_frame"]}
{"id": "C124", "title": "The radio chip is started as its datasheet asks", "statement": "init resets the chip once and before anything else, with the line held for at least 100 us and at least 5 ms of rest. SX126x: error flags are cleared and the TCXO is set up before every block is calibrated, and the errors are read right after; from then on, sleep included, DIO1 and no other line signals exactly TxDone, RxDone, CrcErr and Timeout, and the regulator is the one asked for. SX127x: calibration is started once, in FSK standby and tuned to 868.8 MHz, before it is polled; from then on the amplifier ramps in 50 us and the receiver works at highest gain, boosted.", "quantifier": "all HAL variants, options, chip responses, and sequences of driver calls", "why_tests_cant": "What the chip is configured for after a long sequence of calls depends on every write since the reset; a test sees the bus of one sequence.", "anchors": ["src/device/sx126x.c:sx126x_init", "src/device/sx126x.c:setup_tcxo", "src/device/sx126x.c:sx126x_sleep", "src/device/sx127x.c:sx127x_init"]}
{"id": "C125", "title": "The radio chip is given the time it needs", "statement": "SX126x: after each SetSleep nothing is sent for at least 500 us, over all calls. SX127x: init polls the calibration register and rand reads the random source at least 1 ms apart.", "quantifier": "all sequences of driver calls and chip responses", "why_tests_cant": "A chip on a test bench tolerates shorter pauses; the requirement spans two calls, the end of one and the start of the next.", "anchors": ["src/device/sx126x.c:sx126x_sleep", "src/device/sx126x.c:check_device", "src/device/sx127x.c:sx127x_init", "src/device/sx127x.c:sx127x_rand"]}
{"id": "C126", "title": "SX126x image rejection is calibrated for the frequency in use", "statement": "set_frequency has the image rejection calibrated for a band that contains the requested frequency.", "quantifier": "every frequency", "why_tests_cant": "Bad image rejection shows as lower sensitivity next to an interferer, not as a wrong result; all frequencies.", "anchors": ["src/device/sx126x.c:sx126x_set_freq"]}
{"id": "C127", "title": "Drawing a random number raises no radio event", "statement": "While rand has the chip listen to the air, the chip's interrupts are masked, so that packets or noise on the air raise no event.", "quantifier": "all sequences of driver calls before, all chip responses", "why_tests_cant": "The event needs a packet on the air within a few hundred microseconds.", "anchors": ["src/device/sx126x.c:sx126x_rand", "src/device/sx127x.c:sx127x_rand"]}
{"id": "C128", "title": "The network learns from the next uplink how the device is set", "statement": "A network server that knows the settings of a device (channels, RX1 offset and delay, RX2, data rate, power, number of transmissions) sends it a frame with MAC commands. From the answers in the next uplink, going through commands and answers in order and taking over what was answered positively, it knows the settings of the device afterwards: no command took effect without a positive answer, none was answered positively without effect. If the frame was not received or not accepted, nothing is answered and nothing changed.", "quantifier": "all histories with a downlink between two uplinks, all lists of commands (ChMaskCntl 0 or 6, NbTrans not 0), all requests of the application and other calls in between", "why_tests_cant": "Command and answer are matched only by their order in two frames that are built at different times. Each combination of accepted and refused commands, and of requests queued in between, gives another pair of frames; a single silent change of RX2 or of the delay means the network talks past the device from then on.", "anchors": ["src/mac.c:mac_handle_commands", "src/mac.c:mac_enqueue", "src/stack.c:uwan_send_frame", "src/mac.c:link_adr", "src/mac.c:rx_timing_setup"]}
{"id": "C129", "title": "A device the network no longer hears regains its reach", "statement": "With ADR on, a device whose uplinks stay unanswered (LoRaWAN 1.0.2, 4.3.1.1) goes back to the power the application set, then lowers its data rate step by step, and at DR0 uses all default channels again. So a network that asked for too little power or for a channel that became unusable is reached again after a bounded number of uplinks.", "quantifier": "all histories in which the network is silent, of any length, whatever the network had asked for before", "why_tests_cant": "The steps are hundreds of uplinks apart. Only a run over the whole descent from every data rate, power and channel mask would show what is restored and what is not.", "anchors": ["src/adr.c:adr_handle_uplink", "src/adr.c:adr_handle_link_req", "src/stack.c:apply_tx_power", "src/stack.c:uwan_send_frame", "src/channels.c:channels_get_next"]}
{"id": "C130", "title": "A frame costs one transmission and at most two receive windows", "statement": "The radio is told to send exactly once for each uplink or join-request accepted, never otherwise; and to listen at most twice for each, never otherwise. With timers and radio on time the whole time spent listening is at most two windows of 8 symbols for each frame sent, however the network, interferers and the application's other calls behave.", "quantifier": "all histories; for the time: all timed histories within the tolerances", "why_tests_cant": "Battery life is a sum over the whole life of the device, including received garbage, time-outs, refused calls and re-initialisation; a test sums over one exchange.", "anchors": ["src/stack.c:uwan_timer_callback", "src/stack.c:evt_handler", "src/stack.c:uwan_send_frame", "src/stack.c:uwan_join", "src/stack.c:handle_downlink"]}
{"id": "C131", "title": "A session can be continued after a restart", "statement": "An application that loses power can put its session back with uwan_set_session and go on: it counts the accepted uplinks from the return values, so no uplink counter and no cipher block is used twice; and it can pass a downlink counter with which the network's next frame is accepted and no earlier one is accepted again.", "quantifier": "all pairs of histories, one before and one after the restart, all session keys, counters and frames", "why_tests_cant": "Reuse and replay show only across two runs of the device and for all places where the first may stop; a test stops it at one place. That the application is never told the downlink counter is a statement about everything it is told.", "anchors": ["src/stack.c:uwan_set_session", "src/stack.c:uwan_send_frame", "src/stack.c:handle_downlink", "include/uwan/stack.h:uwan_set_session", "include/uwan/stack.h:uwan_dl_packet"]}
{"id": "C132", "title": "A message influences nothing but its own bytes on the air", "statement": "Of what the application sends with uwan_send_frame only the length matters to everything else: with other messages of the same lengths every call returns the same and every radio, timer and crypto call and every callback is the same, except for the encrypted message and the integrity code of the frames that carry them. A message leaves no trace either: a later call with the same arguments has the same effects to the last byte, whatever was sent before.", "quantifier": "all histories and all ways to replace the messages by others of the same length, including empty and undersized packets from the radio", "why_tests_cant": "Non-interference compares all pairs of runs. A test compares a few; a dependency on leftover bytes in the frame buffer, which the received packet shares, shows only for particular sequences.", "anchors": ["src/stack.c:uwan_send_frame", "src/stack.c:encrypt_payload", "src/stack.c:calc_mic", "src/stack.c:uw_frame", "src/stack.c:handle_downlink"]}
{"id": "C133", "title": "All enabled channels are used equally", "statement": "Over evenly distributed random numbers each enabled channel is used for the same share of the transmissions, whichever channels the application or the network has enabled or disabled.", "quantifier": "all histories, all sets of enabled channels and all random numbers", "why_tests_cant": "The share of a channel depends on all numbers the random source can return and on how the set of enabled channels came about. A test sees that every channel is used sometimes, not how often.", "anchors": ["src/channels.c:channels_get_next", "src/channels.c:uw_channels_max_count", "src/channels.c:uwan_enable_channel", "src/region/common.c:region_86x_handle_adr_ch_mask"]}
{"id": "C134", "title": "Received messages are handed over, not interpreted", "statement": "The contents of the messages in data downlinks decide nothing: two devices that get the same calls and events, and packets that differ only in the messages and integrity codes and get the same verdicts, return the same, send the same bytes at the same parameters and keep the same state. Only what the application is handed differs.", "quantifier": "all pairs of histories that differ only in the messages received, all continuations", "why_tests_cant": "A message value that changes a counter, a radio parameter, a later frame or the answer to a later call shows only for that value and perhaps much later. Tests compare single runs with what is expected of them.", "anchors": ["src/stack.c:handle_data_msg", "src/stack.c:handle_downlink", "src/stack.c:encrypt_payload", "src/stack.c:evt_handler"]}
{"id": "C135", "title": "An attacker cannot put words into the device's mouth", "statement": "Somebody hears all frames and repeats, holds back, reorders, changes and invents frames, but cannot make an integrity code of the session. Whatever frames reach the network server, the messages it accepts as coming from the device are messages passed to uwan_send_frame in this session, unchanged, each at most once and in the order of the calls.", "quantifier": "all executions of a session, all sequences of frames that reach the server and contain no forged integrity code, all ciphers", "why_tests_cant": "What the attacker sends is any sequence of any bytes, interleaved with the frames of any session. A frame that can be taken for another one, because a header field, the counter or the direction is not covered by the integrity code, need not show in any sequence tried.", "anchors": ["src/stack.c:uwan_send_frame", "src/stack.c:calc_mic", "src/stack.c:encrypt_payload"]}
{"id": "C136", "title": "An attacker cannot put words into the network's mouth", "statement": "Under the same attacker, the data downlinks delivered to the application with UWAN_ERR_NO are downlinks the network has sent to this device in this session, unchanged, each at most once and in the order of sending.", "quantifier": "all executions of a session, all sequences of packets that reach the device and contain no forged integrity code, all ciphers", "why_tests_cant": "Replays, reflections of the device's own uplinks, old frames after the counter has moved, and frames with changed headers come in any order and number; the counter they are compared with depends on all packets before, forged ones included.", "anchors": ["src/stack.c:handle_data_msg", "src/stack.c:handle_downlink", "src/stack.c:calc_mic"]}
{"id": "C137", "title": "The SX127x receiver is optimised for the bandwidth in use", "statement": "When the SX127x listens, its two high-bandwidth optimisation registers (0x36, 0x3a) are set as Semtech's errata note 2.1 asks for the bandwidth and frequency in use: one setting for 500 kHz, by band, another for all other bandwidths.", "quantifier": "every sequence of driver calls, every bandwidth and frequency, every chip response", "why_tests_cant": "a wrong setting only costs sensitivity; nothing in the interface shows it", "anchors": ["src/device/sx127x.c:sx127x_rx"]}
{"id": "C138", "title": "Each radio event is told exactly once", "statement": "Whenever the chip raises TxDone, RxDone, Timeout or CrcError, at any moment, also while the driver is talking to it, the event is reported by exactly one irq_handler call: none is lost between reading and clearing the flags, none is reported twice.", "quantifier": "every sequence of driver calls, every moment at which the chip raises a flag", "why_tests_cant": "the chip may raise a flag between any two bus accesses; tests fix the moment", "anchors": ["src/device/sx127x.c:sx127x_irq_handler", "src/device/sx126x.c:sx126x_irq_handler"]}
{"id": "C139", "title": "A device joins only if the network has answered its join-request", "statement": "Whatever an attacker without the AppKey sends, the device becomes joined only by a join-accept that the network has made as the answer to the device's last join-request, so that device and network are in the same session.", "quantifier": "every history, every packet from the air, every set of join-accepts the network has made", "why_tests_cant": "the attacker may send anything, including every packet heard earlier", "anchors": ["src/stack.c:handle_join_msg", "src/stack.c:uwan_join"]}
{"id": "C140", "title": "Devices of one network use the same sync word", "statement": "After init and after set_public_network the chip uses the LoRa sync word of the kind of network last asked for, 0x34 for public and 0x12 for private networks, with either radio chip, so that devices of one network hear each other.", "quantifier": "every sequence of driver calls, both chips", "why_tests_cant": "a test against the driver's own constants agrees with the driver; a mismatch shows only between different devices", "anchors": ["src/device/sx127x.c:sx127x_set_public_network", "src/device/sx126x.c:sx126x_set_public_network"]}
{"id": "C141", "title": "The second receive window is given up only for a frame to this device", "statement": "After an uplink each receive window is opened when its timer fires. A first window that times out leads to the second. The second is given up only if the first brought a frame that was meant for this device, by address and MIC.", "quantifier": "every sequence of API calls, every timing and content of radio and timer events", "why_tests_cant": "a test answers in one window with the right frame; the claim is about every foreign or damaged frame the radio may pick up in the first window", "anchors": ["src/stack.c:evt_handler", "src/stack.c:handle_downlink", "src/stack.c:uwan_timer_callback"]}
{"id": "C142", "title": "The C text itself runs without a fault", "statement": "Whatever calls the application makes and whatever the radio and the timers report, from power-on, the C text of the stack ends every loop and call, reads and writes only inside its objects, reads no uninitialised variable, overflows no signed number and follows no null pointer; the one exception is the end of a transmission after a device time request without a table of MAC handlers.", "quantifier": "every sequence of API calls with valid arguments, radio events and timer callbacks, every packet, random number, battery level and time, every cipher", "why_tests_cant": "a test runs one sequence with one set of inputs, on a compiler that may hide an access outside an object", "anchors": ["src/stack.c:evt_handler", "src/stack.c:handle_data_msg", "src/stack.c:uwan_send_frame", "src/mac.c:mac_handle_commands", "src/channels.c:channels_get_next"]}
{"id": "C143", "title": "The C text has exactly the behaviour the properties are proved of", "statement": "Every execution of the C text of the stack, from power-on, is an execution of the model the properties are proved of: each call returns the same value, makes the same calls to the radio, the timers, the cipher and the application with the same arguments in the same order, and leaves the same values in the static variables.", "quantifier": "every sequence of API calls with valid arguments, radio events and timer callbacks, every packet, random number, battery level and time, every cipher", "why_tests_cant": "a comparison on sample runs says nothing about the runs not sampled; a slip in a rarely taken branch stays unseen", "anchors": ["src/stack.c:evt_handler", "src/stack.c:uwan_init", "src/mac.c:mac_handle_commands", "src/adr.c:adr_handle_link_req", "src/region/common.c:region_86x_handle_adr_ch_mask"]}
{"id": "C144", "title": "An uplink sent by the C text is the frame the network expects", "statement": "After uwan_set_session and any other calls and interrupts short of a new session, an accepted uwan_send_frame hands the radio exactly one frame: a LoRaWAN data frame with the session's address, the counter given plus the number of uplinks accepted since, the right MIC for the full 32-bit counter, and a payload that decrypts to the bytes passed.", "quantifier": "every execution of the C text, every session, payload and port, every number of uplinks before", "why_tests_cant": "the counter, the queue of MAC answers and the frame buffer depend on everything that happened before", "anchors": ["src/stack.c:uwan_send_frame", "src/stack.c:uwan_set_session", "src/stack.c:encrypt_payload", "src/stack.c:calc_mic"]}
{"id": "C145", "title": "The C text keeps the rules of the radio, the exchange and the cipher", "statement": "In every execution of the C text no frequency outside 860-870 MHz is set, transmissions and reported results alternate, transmissions have normal and receptions inverted IQ with the common modem settings, and every cipher context is deleted before the next one is created.", "quantifier": "every execution of the C text", "why_tests_cant": "the calls depend on the whole history, on packets from the air and on the random numbers", "anchors": ["src/stack.c:evt_handler", "src/stack.c:uwan_timer_callback", "src/stack.c:uwan_send_frame", "src/stack.c:handle_join_msg"]}
{"id": "C146", "title": "The C text hands over only data the network has signed", "statement": "After uwan_set_session and any other calls and interrupts short of a new session, a data message reported without error comes from bytes read from the radio that are a data downlink for the session's address with the MIC of the session's network key for a counter with the 16 bits on air; port and data are those of the frame, decrypted with the session's key.", "quantifier": "every execution of the C text, every packet from the air", "why_tests_cant": "an attacker may send anything at any time; a test sends a few frames", "anchors": ["src/stack.c:handle_data_msg", "src/stack.c:handle_downlink", "src/stack.c:calc_mic", "src/stack.c:encrypt_payload"]}
{"id": "C147", "title": "The C text with the clock synchronisation package has exactly the behaviour the properties are proved of", "statement": "Every execution of the C text of the stack and of the clock synchronisation package, from power-on, is an execution of the model: each call returns the same value and makes the same calls to the radio, the timers, the cipher, the application and its clock with the same arguments in the same order. The one exception is a call with a packet the package does not handle, in which an undefined shift is executed; up to that call the executions agree.", "quantifier": "every sequence of calls of the stack and of the package with valid arguments, radio events and timer callbacks, every packet, time and random number, every cipher", "why_tests_cant": "a comparison on sample runs says nothing about the runs not sampled; a slip in a rarely taken branch stays unseen", "anchors": ["src/ext/clock_sync.c:uwan_clock_sync_handle_time_answ", "src/ext/clock_sync.c:uwan_clock_sync_send_time_req", "src/ext/clock_sync.c:uwan_clock_sync_send_answ", "src/stack.c:uwan_send_frame"]}
{"id": "C148", "title": "The C text of the clock synchronisation package runs without a fault on packets it handles", "statement": "Whatever calls are made to the stack and the package, the C text runs through all of them unless one is the end of a transmission without a table of MAC handlers, or a packet with a command identifier from 31 on, a ForceDeviceResyncReq without its parameter at the end, or a period from 6 on. In packets without these an undefined shift is executed only for a negative correction.", "quantifier": "every sequence of calls with valid arguments, every packet up to 255 bytes", "why_tests_cant": "an access behind the packet or behind the buffer of answers depends on the packet and on all commands before; a test sends a few packets", "anchors": ["src/ext/clock_sync.c:uwan_clock_sync_handle_time_answ", "src/ext/clock_sync.c:ans_buf"]}
{"id": "C149", "title": "The C text corrects the clock only as the answer to the current request asks", "statement": "After uwan_clock_sync_init and any other calls, correct_time is called only in a call with a packet received without error on port 202 that has an AppTimeAns with this signed value and the current token, the number of corrections since uwan_clock_sync_init modulo 16, and at most once per packet; an AppTimeAns with the current token at the start of a packet is applied.", "quantifier": "every execution of the C text of the stack and the package on packets it handles, every number of corrections before", "why_tests_cant": "the token depends on all answers received before; old and repeated answers may come at any time", "anchors": ["src/ext/clock_sync.c:uwan_clock_sync_handle_time_answ", "src/ext/clock_sync.c:state_token_req"]}
{"id": "C150", "title": "The C text sends the request and the answers the server expects", "statement": "After uwan_clock_sync_init and any other calls, uwan_clock_sync_send_time_req hands the stack one unconfirmed message on port 202: the answers to the last packet received without error, then AppTimeReq with the GPS time, the token and the flag; if UWAN_ERR_NO is returned exactly one frame on port 202 with a payload of that length goes to the radio. uwan_clock_sync_send_answ sends exactly those answers, and uwan_clock_sync_is_answ_pending tells whether there are any.", "quantifier": "every execution of the C text of the stack and the package on packets it handles, every time and flag", "why_tests_cant": "what is pending depends on the whole history of packets; a test looks at one packet and one request", "anchors": ["src/ext/clock_sync.c:uwan_clock_sync_send_time_req", "src/ext/clock_sync.c:uwan_clock_sync_send_answ", "src/ext/clock_sync.c:uwan_clock_sync_is_answ_pending"]}
{"id": "C151", "title": "The C text of the SX127x driver runs without a fault and does what the properties are proved of", "statement": "Whatever the chip answers, if the driver is handed a HAL before it needs one, every sequence of calls of the members of sx127x_dev runs through: no access outside an object, no null pointer, every loop ends. If it is not, a null pointer is used. The bytes on the bus, pins, delays, callbacks and returned values are those of the model on a chip with the same answers.", "quantifier": "every sequence of driver calls with valid arguments, every answer of the chip to every transfer", "why_tests_cant": "a test has one chip with one behaviour; an access outside a table or a loop that never ends shows only for some arguments or answers", "anchors": ["src/device/sx127x.c:sx127x_init", "src/device/sx127x.c:rx_calibartion", "src/device/sx127x.c:sx127x_setup", "src/device/sx127x.c:sx127x_read_packet", "src/device/sx127x.c:sx127x_irq_handler"]}
{"id": "C152", "title": "The C text of the SX127x driver keeps the chip as configured", "statement": "After any sequence of calls of the C text whose last init succeeded, the chip's registers hold the frequency, power, modem settings and sync word last asked for, and the chip is in LoRa mode.", "quantifier": "every sequence of driver calls with valid arguments, every chip that reads back RegModemConfig2 (for LoRa mode: RegOpMode) as written", "why_tests_cant": "registers are changed by read-modify-write from several functions; whether one undoes another depends on the order of calls", "anchors": ["src/device/sx127x.c:sx127x_setup", "src/device/sx127x.c:sx127x_rx", "src/device/sx127x.c:sx127x_set_power", "src/device/sx127x.c:sx127x_set_public_network", "src/device/sx127x.c:set_op_mode"]}
{"id": "C153", "title": "The C text of the SX127x driver reports what the chip says and switches the board as it should", "statement": "In every sequence of calls of the C text, each event the chip raises a flag for is reported exactly once or its flag is still up; read_packet reports SNR and RSSI by the datasheet's formulas with the offset of the last accepted power; tx and rx turn the antenna switch before starting, setup and sleep switch the board's I/O, nothing else does.", "quantifier": "every sequence of driver calls with valid arguments, every chip whose flag register tells the truth, every HAL with or without the optional functions", "why_tests_cant": "flags may come up between the reading and the clearing of the register; the RSSI offset depends on earlier calls", "anchors": ["src/device/sx127x.c:sx127x_irq_handler", "src/device/sx127x.c:sx127x_read_packet", "src/device/sx127x.c:rssi_offset", "src/device/sx127x.c:sx127x_tx", "src/device/sx127x.c:sx127x_sleep"]}
