import Verif.Lemmas.CodeExec

/-! # Global variables of the C program and fields of the model's state

For every variable: what reading it gives, and what writing it does to the state. -/

namespace Uwan.C

theorem u32Val_ofInt (n : Int) (h0 : 0 ≤ n) (h1 : n < 4294967296) : u32Val (BitVec.ofInt 32 n) = .int .u32 n := by
  simp only [u32Val, BitVec.toNat_ofInt]
  congr 1
  omega

theorem byteVal_ofInt (n : Int) (h0 : 0 ≤ n) (h1 : n < 256) : byteVal (BitVec.ofInt 8 n) = .int .u8 n := by
  simp only [byteVal, BitVec.toNat_ofInt]
  congr 1
  omega

theorem i8Val_ofInt (n : Int) (h0 : -128 ≤ n) (h1 : n < 128) : i8Val (BitVec.ofInt 8 n) = .int .i8 n := by
  simp only [i8Val, BitVec.toInt_ofInt]
  congr 1
  exact Int.bmod_eq_of_le (by omega) (by omega)

theorem boolVal_decide (n : Int) (h0 : 0 ≤ n) (h1 : n < 2) : boolVal (decide (n ≠ 0)) = .int .bool n := by
  unfold boolVal
  by_cases h : n = 0
  · simp [h]
  · have : n = 1 := by omega
    simp [this]

theorem enumVal_toNat (n : Int) (h0 : 0 ≤ n) (_ : n < 4294967296) : enumVal n.toNat = .int .u32 n := by
  simp only [enumVal]
  congr 1
  omega

theorem u8_toNat (n : Int) (h0 : 0 ≤ n) (_ : n < 256) : Val.int .u8 (n.toNat : Int) = .int .u8 n := by
  congr 1
  omega

variable (s : St) (x : Extra)

@[csem] theorem get_ack_cnt : (enc s x).get "ack_cnt" = some [u32Val s.adr.ackCnt] := (rfl)
@[csem] theorem put_ack_cnt (n : Int) (h0 : 0 ≤ n) (h1 : n < 4294967296) : (enc s x).put "ack_cnt" [.int .u32 n] = enc { s with adr := { s.adr with ackCnt := BitVec.ofInt 32 n } } x := by
  rw [← u32Val_ofInt n h0 h1]; exact (rfl)
@[csem] theorem get_ack_limit : (enc s x).get "ack_limit" = some [byteVal s.adr.ackLimit] := (rfl)
@[csem] theorem put_ack_limit (n : Int) (h0 : 0 ≤ n) (h1 : n < 256) : (enc s x).put "ack_limit" [.int .u8 n] = enc { s with adr := { s.adr with ackLimit := BitVec.ofInt 8 n } } x := by
  rw [← byteVal_ofInt n h0 h1]; exact (rfl)
@[csem] theorem get_ack_delay : (enc s x).get "ack_delay" = some [byteVal s.adr.ackDelay] := (rfl)
@[csem] theorem put_ack_delay (n : Int) (h0 : 0 ≤ n) (h1 : n < 256) : (enc s x).put "ack_delay" [.int .u8 n] = enc { s with adr := { s.adr with ackDelay := BitVec.ofInt 8 n } } x := by
  rw [← byteVal_ofInt n h0 h1]; exact (rfl)
@[csem] theorem get_adr_is_enabled : (enc s x).get "adr_is_enabled" = some [boolVal s.adr.enabled] := (rfl)
@[csem] theorem put_adr_is_enabled (b : Bool) : (enc s x).put "adr_is_enabled" [boolVal b] = enc { s with adr := { s.adr with enabled := b } } x := (rfl)
@[csem] theorem get_mac_save_dev_time : (enc s x).get "mac_save_dev_time" = some [boolVal s.mac.saveDevTime] := (rfl)
@[csem] theorem put_mac_save_dev_time (b : Bool) : (enc s x).put "mac_save_dev_time" [boolVal b] = enc { s with mac := { s.mac with saveDevTime := b } } x := (rfl)
@[csem] theorem get_mac_dev_time : (enc s x).get "mac_dev_time" = some [u32Val s.mac.devTime] := (rfl)
@[csem] theorem put_mac_dev_time (n : Int) (h0 : 0 ≤ n) (h1 : n < 4294967296) : (enc s x).put "mac_dev_time" [.int .u32 n] = enc { s with mac := { s.mac with devTime := BitVec.ofInt 32 n } } x := by
  rw [← u32Val_ofInt n h0 h1]; exact (rfl)
@[csem] theorem get_uw_session_is_joined : (enc s x).get "uw_session.is_joined" = some [boolVal s.session.isJoined] := (rfl)
@[csem] theorem put_uw_session_is_joined (b : Bool) : (enc s x).put "uw_session.is_joined" [boolVal b] = enc { s with session := { s.session with isJoined := b } } x := (rfl)
@[csem] theorem get_uw_session_ack_required : (enc s x).get "uw_session.ack_required" = some [boolVal s.session.ackRequired] := (rfl)
@[csem] theorem put_uw_session_ack_required (b : Bool) : (enc s x).put "uw_session.ack_required" [boolVal b] = enc { s with session := { s.session with ackRequired := b } } x := (rfl)
@[csem] theorem get_uw_session_dr : (enc s x).get "uw_session.dr" = some [enumVal s.session.dr] := (rfl)
@[csem] theorem put_uw_session_dr (n : Int) (h0 : 0 ≤ n) (h1 : n < 4294967296) : (enc s x).put "uw_session.dr" [.int .u32 n] = enc { s with session := { s.session with dr := n.toNat } } x := by
  rw [← enumVal_toNat n h0 h1]; exact (rfl)
@[csem] theorem get_uw_session_dev_addr : (enc s x).get "uw_session.dev_addr" = some [u32Val s.session.devAddr] := (rfl)
@[csem] theorem put_uw_session_dev_addr (n : Int) (h0 : 0 ≤ n) (h1 : n < 4294967296) : (enc s x).put "uw_session.dev_addr" [.int .u32 n] = enc { s with session := { s.session with devAddr := BitVec.ofInt 32 n } } x := by
  rw [← u32Val_ofInt n h0 h1]; exact (rfl)
@[csem] theorem get_uw_session_f_cnt_up : (enc s x).get "uw_session.f_cnt_up" = some [u32Val s.session.fCntUp] := (rfl)
@[csem] theorem put_uw_session_f_cnt_up (n : Int) (h0 : 0 ≤ n) (h1 : n < 4294967296) : (enc s x).put "uw_session.f_cnt_up" [.int .u32 n] = enc { s with session := { s.session with fCntUp := BitVec.ofInt 32 n } } x := by
  rw [← u32Val_ofInt n h0 h1]; exact (rfl)
@[csem] theorem get_uw_session_f_cnt_down : (enc s x).get "uw_session.f_cnt_down" = some [u32Val s.session.fCntDown] := (rfl)
@[csem] theorem put_uw_session_f_cnt_down (n : Int) (h0 : 0 ≤ n) (h1 : n < 4294967296) : (enc s x).put "uw_session.f_cnt_down" [.int .u32 n] = enc { s with session := { s.session with fCntDown := BitVec.ofInt 32 n } } x := by
  rw [← u32Val_ofInt n h0 h1]; exact (rfl)
@[csem] theorem get_pkt_params_crc_on : (enc s x).get "pkt_params.crc_on" = some [boolVal s.pp.crcOn] := (rfl)
@[csem] theorem put_pkt_params_crc_on (b : Bool) : (enc s x).put "pkt_params.crc_on" [boolVal b] = enc { s with pp := { s.pp with crcOn := b } } x := (rfl)
@[csem] theorem get_pkt_params_inverted_iq : (enc s x).get "pkt_params.inverted_iq" = some [boolVal s.pp.invertedIq] := (rfl)
@[csem] theorem put_pkt_params_inverted_iq (b : Bool) : (enc s x).put "pkt_params.inverted_iq" [boolVal b] = enc { s with pp := { s.pp with invertedIq := b } } x := (rfl)
@[csem] theorem get_pkt_params_implicit_header : (enc s x).get "pkt_params.implicit_header" = some [boolVal s.pp.implicitHeader] := (rfl)
@[csem] theorem put_pkt_params_implicit_header (b : Bool) : (enc s x).put "pkt_params.implicit_header" [boolVal b] = enc { s with pp := { s.pp with implicitHeader := b } } x := (rfl)
@[csem] theorem get_uw_rx1_delay : (enc s x).get "uw_rx1_delay" = some [u32Val s.rx1Delay] := (rfl)
@[csem] theorem put_uw_rx1_delay (n : Int) (h0 : 0 ≤ n) (h1 : n < 4294967296) : (enc s x).put "uw_rx1_delay" [.int .u32 n] = enc { s with rx1Delay := BitVec.ofInt 32 n } x := by
  rw [← u32Val_ofInt n h0 h1]; exact (rfl)
@[csem] theorem get_uw_rx1_offset : (enc s x).get "uw_rx1_offset" = some [byteVal s.rx1Offset] := (rfl)
@[csem] theorem put_uw_rx1_offset (n : Int) (h0 : 0 ≤ n) (h1 : n < 256) : (enc s x).put "uw_rx1_offset" [.int .u8 n] = enc { s with rx1Offset := BitVec.ofInt 8 n } x := by
  rw [← byteVal_ofInt n h0 h1]; exact (rfl)
@[csem] theorem get_uw_rx2_delay : (enc s x).get "uw_rx2_delay" = some [u32Val s.rx2Delay] := (rfl)
@[csem] theorem put_uw_rx2_delay (n : Int) (h0 : 0 ≤ n) (h1 : n < 4294967296) : (enc s x).put "uw_rx2_delay" [.int .u32 n] = enc { s with rx2Delay := BitVec.ofInt 32 n } x := by
  rw [← u32Val_ofInt n h0 h1]; exact (rfl)
@[csem] theorem get_uw_is_join_state : (enc s x).get "uw_is_join_state" = some [boolVal s.joinState] := (rfl)
@[csem] theorem put_uw_is_join_state (b : Bool) : (enc s x).put "uw_is_join_state" [boolVal b] = enc { s with joinState := b } x := (rfl)
@[csem] theorem get_uw_dev_nonce : (enc s x).get "uw_dev_nonce" = some [u32Val s.devNonce] := (rfl)
@[csem] theorem put_uw_dev_nonce (n : Int) (h0 : 0 ≤ n) (h1 : n < 4294967296) : (enc s x).put "uw_dev_nonce" [.int .u32 n] = enc { s with devNonce := BitVec.ofInt 32 n } x := by
  rw [← u32Val_ofInt n h0 h1]; exact (rfl)
@[csem] theorem get_default_rx1_delay : (enc s x).get "default_rx1_delay" = some [u32Val s.defaultRx1Delay] := (rfl)
@[csem] theorem put_default_rx1_delay (n : Int) (h0 : 0 ≤ n) (h1 : n < 4294967296) : (enc s x).put "default_rx1_delay" [.int .u32 n] = enc { s with defaultRx1Delay := BitVec.ofInt 32 n } x := by
  rw [← u32Val_ofInt n h0 h1]; exact (rfl)
@[csem] theorem get_default_dr : (enc s x).get "default_dr" = some [enumVal s.defaultDr] := (rfl)
@[csem] theorem put_default_dr (n : Int) (h0 : 0 ≤ n) (h1 : n < 4294967296) : (enc s x).put "default_dr" [.int .u32 n] = enc { s with defaultDr := n.toNat } x := by
  rw [← enumVal_toNat n h0 h1]; exact (rfl)
@[csem] theorem get_default_nb_trans : (enc s x).get "default_nb_trans" = some [byteVal s.defaultNbTrans] := (rfl)
@[csem] theorem put_default_nb_trans (n : Int) (h0 : 0 ≤ n) (h1 : n < 256) : (enc s x).put "default_nb_trans" [.int .u8 n] = enc { s with defaultNbTrans := BitVec.ofInt 8 n } x := by
  rw [← byteVal_ofInt n h0 h1]; exact (rfl)
@[csem] theorem get_uw_nb_trans : (enc s x).get "uw_nb_trans" = some [byteVal s.nbTrans] := (rfl)
@[csem] theorem put_uw_nb_trans (n : Int) (h0 : 0 ≤ n) (h1 : n < 256) : (enc s x).put "uw_nb_trans" [.int .u8 n] = enc { s with nbTrans := BitVec.ofInt 8 n } x := by
  rw [← byteVal_ofInt n h0 h1]; exact (rfl)
@[csem] theorem get_default_tx_power : (enc s x).get "default_tx_power" = some [byteVal s.defaultTxPower] := (rfl)
@[csem] theorem put_default_tx_power (n : Int) (h0 : 0 ≤ n) (h1 : n < 256) : (enc s x).put "default_tx_power" [.int .u8 n] = enc { s with defaultTxPower := BitVec.ofInt 8 n } x := by
  rw [← byteVal_ofInt n h0 h1]; exact (rfl)
@[csem] theorem get_uw_tx_power : (enc s x).get "uw_tx_power" = some [byteVal s.txPower] := (rfl)
@[csem] theorem put_uw_tx_power (n : Int) (h0 : 0 ≤ n) (h1 : n < 256) : (enc s x).put "uw_tx_power" [.int .u8 n] = enc { s with txPower := BitVec.ofInt 8 n } x := by
  rw [← byteVal_ofInt n h0 h1]; exact (rfl)
@[csem] theorem get_default_max_eirp : (enc s x).get "default_max_eirp" = some [i8Val s.maxEirp] := (rfl)
@[csem] theorem put_default_max_eirp (n : Int) (h0 : -128 ≤ n) (h1 : n < 128) : (enc s x).put "default_max_eirp" [.int .i8 n] = enc { s with maxEirp := BitVec.ofInt 8 n } x := by
  rw [← i8Val_ofInt n h0 h1]; exact (rfl)
@[csem] theorem get_current_snr : (enc s x).get "current_snr" = some [i8Val s.snr] := (rfl)
@[csem] theorem put_current_snr (n : Int) (h0 : -128 ≤ n) (h1 : n < 128) : (enc s x).put "current_snr" [.int .i8 n] = enc { s with snr := BitVec.ofInt 8 n } x := by
  rw [← i8Val_ofInt n h0 h1]; exact (rfl)
@[csem] theorem get_uw_rx2_frequency : (enc s x).get "uw_rx2_frequency" = some [u32Val s.rx2Freq] := (rfl)
@[csem] theorem put_uw_rx2_frequency (n : Int) (h0 : 0 ≤ n) (h1 : n < 4294967296) : (enc s x).put "uw_rx2_frequency" [.int .u32 n] = enc { s with rx2Freq := BitVec.ofInt 32 n } x := by
  rw [← u32Val_ofInt n h0 h1]; exact (rfl)
@[csem] theorem get_uw_rx2_dr : (enc s x).get "uw_rx2_dr" = some [enumVal s.rx2Dr] := (rfl)
@[csem] theorem put_uw_rx2_dr (n : Int) (h0 : 0 ≤ n) (h1 : n < 4294967296) : (enc s x).put "uw_rx2_dr" [.int .u32 n] = enc { s with rx2Dr := n.toNat } x := by
  rw [← enumVal_toNat n h0 h1]; exact (rfl)
@[csem] theorem get_uw_channels_max_count : (enc s x).get "uw_channels_max_count" = some [.int .u8 s.chan.maxCount] := (rfl)
@[csem] theorem get_uw_channels_mask : (enc s x).get "uw_channels_mask" = some [byteVal s.chan.mask.b0, byteVal s.chan.mask.b1] := (rfl)
@[csem] theorem get_uw_channels : (enc s x).get "uw_channels" = some (s.chan.freq.toList.map u32Val) := (rfl)
@[csem] theorem get_mac_buf : (enc s x).get "mac_buf" = some ((s.mac.queue ++ x.macTail).map byteVal) := (rfl)
@[csem] theorem get_mac_buf_pos : (enc s x).get "mac_buf_pos" = some [.int .u8 s.mac.queue.length] := (rfl)
@[csem] theorem get_mac_cbs : (enc s x).get "mac_cbs" = some [if s.mac.cbs.isSome then globPtr "cbs" else .null] := (rfl)
@[csem] theorem get_uw_region : (enc s x).get "uw_region" = some [regionVal s.region] := (rfl)
@[csem] theorem get_uw_session_nwk_s_key : (enc s x).get "uw_session.nwk_s_key" = some (s.session.nwkSKey.toList.map byteVal) := (rfl)
@[csem] theorem get_uw_session_app_s_key : (enc s x).get "uw_session.app_s_key" = some (s.session.appSKey.toList.map byteVal) := (rfl)
@[csem] theorem get_uw_radio : (enc s x).get "uw_radio" = some [if s.region.isSome then globPtr "radio" else .null] := (rfl)
@[csem] theorem get_uw_stack_hal : (enc s x).get "uw_stack_hal" = some [if s.region.isSome then globPtr "hal" else .null] := (rfl)
@[csem] theorem get_pkt_params_sf : (enc s x).get "pkt_params.sf" = some [enumVal (Sf.num s.pp.sf)] := (rfl)
@[csem] theorem get_pkt_params_bw : (enc s x).get "pkt_params.bw" = some [enumVal (Bw.num s.pp.bw)] := (rfl)
@[csem] theorem get_pkt_params_cr : (enc s x).get "pkt_params.cr" = some [enumVal (Cr.num s.pp.cr)] := (rfl)
@[csem] theorem get_pkt_params_preamble_len : (enc s x).get "pkt_params.preamble_len" = some [.int .u16 s.pp.preambleLen.toNat] := (rfl)
@[csem] theorem get_uw_frame : (enc s x).get "uw_frame" = some (s.frame.map byteVal) := (rfl)
@[csem] theorem get_uw_state : (enc s x).get "uw_state" = some [enumVal (Phase.num s.phase)] := (rfl)
@[csem] theorem get_uw_dev_eui : (enc s x).get "uw_dev_eui" = some (s.devEui.toList.map byteVal) := (rfl)
@[csem] theorem get_uw_app_eui : (enc s x).get "uw_app_eui" = some (s.appEui.toList.map byteVal) := (rfl)
@[csem] theorem get_uw_app_key : (enc s x).get "uw_app_key" = some (s.appKey.toList.map byteVal) := (rfl)
@[csem] theorem get_default_join_delay : (enc s x).get "default_join_delay" = some [.int .u32 5000] := (rfl)
@[csem] theorem get_cbs_get_battery_level : (enc s x).get "cbs.get_battery_level" = some [optFn (s.mac.cbs.getD x.cbs).battery "app.get_battery_level"] := (rfl)
@[csem] theorem get_cbs_link_check_result : (enc s x).get "cbs.link_check_result" = some [optFn (s.mac.cbs.getD x.cbs).linkCheck "app.link_check_result"] := (rfl)
@[csem] theorem get_cbs_get_device_time : (enc s x).get "cbs.get_device_time" = some [optFn (s.mac.cbs.getD x.cbs).getTime "app.get_device_time"] := (rfl)
@[csem] theorem get_cbs_device_time_result : (enc s x).get "cbs.device_time_result" = some [optFn (s.mac.cbs.getD x.cbs).timeResult "app.device_time_result"] := (rfl)
@[csem] theorem get_radio_set_evt_handler : (enc s x).get "radio.set_evt_handler" = some [.fn "radio.set_evt_handler"] := (rfl)
@[csem] theorem get_radio_rand : (enc s x).get "radio.rand" = some [.fn "radio.rand"] := (rfl)
@[csem] theorem get_radio_set_frequency : (enc s x).get "radio.set_frequency" = some [.fn "radio.set_frequency"] := (rfl)
@[csem] theorem get_radio_setup : (enc s x).get "radio.setup" = some [.fn "radio.setup"] := (rfl)
@[csem] theorem get_radio_set_power : (enc s x).get "radio.set_power" = some [.fn "radio.set_power"] := (rfl)
@[csem] theorem get_radio_tx : (enc s x).get "radio.tx" = some [.fn "radio.tx"] := (rfl)
@[csem] theorem get_radio_rx : (enc s x).get "radio.rx" = some [.fn "radio.rx"] := (rfl)
@[csem] theorem get_radio_read_packet : (enc s x).get "radio.read_packet" = some [.fn "radio.read_packet"] := (rfl)
@[csem] theorem get_radio_sleep : (enc s x).get "radio.sleep" = some [.fn "radio.sleep"] := (rfl)
@[csem] theorem get_hal_start_timer : (enc s x).get "hal.start_timer" = some [.fn "hal.start_timer"] := (rfl)
@[csem] theorem get_hal_stop_timer : (enc s x).get "hal.stop_timer" = some [.fn "hal.stop_timer"] := (rfl)
@[csem] theorem get_hal_downlink_callback : (enc s x).get "hal.downlink_callback" = some [.fn "hal.downlink_callback"] := (rfl)
@[csem] theorem get_hal_crypto_aes_create_context : (enc s x).get "hal.crypto_aes_create_context" = some [.fn "hal.crypto_aes_create_context"] := (rfl)
@[csem] theorem get_hal_crypto_aes_encrypt : (enc s x).get "hal.crypto_aes_encrypt" = some [.fn "hal.crypto_aes_encrypt"] := (rfl)
@[csem] theorem get_hal_crypto_aes_delete_context : (enc s x).get "hal.crypto_aes_delete_context" = some [.fn "hal.crypto_aes_delete_context"] := (rfl)
@[csem] theorem get_hal_crypto_cmac_create_context : (enc s x).get "hal.crypto_cmac_create_context" = some [.fn "hal.crypto_cmac_create_context"] := (rfl)
@[csem] theorem get_hal_crypto_cmac_update : (enc s x).get "hal.crypto_cmac_update" = some [.fn "hal.crypto_cmac_update"] := (rfl)
@[csem] theorem get_hal_crypto_cmac_finish : (enc s x).get "hal.crypto_cmac_finish" = some [.fn "hal.crypto_cmac_finish"] := (rfl)
@[csem] theorem get_hal_crypto_cmac_delete_context : (enc s x).get "hal.crypto_cmac_delete_context" = some [.fn "hal.crypto_cmac_delete_context"] := (rfl)
@[csem] theorem get_region_eu868_init : (enc s x).get "region_eu868.init" = some [.fn "eu868_init"] := (rfl)
@[csem] theorem get_region_eu868_handle_cflist : (enc s x).get "region_eu868.handle_cflist" = some [.fn "eu868_handle_cflist"] := (rfl)
@[csem] theorem get_region_eu868_handle_adr_ch_mask : (enc s x).get "region_eu868.handle_adr_ch_mask" = some [.fn "region_86x_handle_adr_ch_mask"] := (rfl)
@[csem] theorem get_region_ru864_init : (enc s x).get "region_ru864.init" = some [.fn "ru864_init"] := (rfl)
@[csem] theorem get_region_ru864_handle_cflist : (enc s x).get "region_ru864.handle_cflist" = some [.fn "ru864_handle_cflist"] := (rfl)
@[csem] theorem get_region_ru864_handle_adr_ch_mask : (enc s x).get "region_ru864.handle_adr_ch_mask" = some [.fn "region_86x_handle_adr_ch_mask"] := (rfl)
@[csem] theorem get_mac_commands_handler : (enc s x).get "mac_commands.handler" = some [.fn "link_check", .fn "link_adr", .fn "duty_cycle", .fn "rx_param_setup", .fn "dev_status", .fn "new_channel", .fn "rx_timing_setup", .fn "tx_param_setup", .fn "di_channel", .fn "device_time"] := (rfl)
@[csem] theorem get_mac_commands_cid : (enc s x).get "mac_commands.cid" = some [.int .u8 2, .int .u8 3, .int .u8 4, .int .u8 5, .int .u8 6, .int .u8 7, .int .u8 8, .int .u8 9, .int .u8 10, .int .u8 13] := (rfl)
@[csem] theorem get_mac_commands_pld_size : (enc s x).get "mac_commands.pld_size" = some [.int .u8 2, .int .u8 4, .int .u8 1, .int .u8 4, .int .u8 0, .int .u8 5, .int .u8 1, .int .u8 1, .int .u8 4, .int .u8 5] := (rfl)
@[csem] theorem get_uw_dr_table_sf : (enc s x).get "uw_dr_table.sf" = some [.int .u32 6, .int .u32 5, .int .u32 4, .int .u32 3, .int .u32 2, .int .u32 1] := (rfl)
@[csem] theorem get_uw_dr_table_bw : (enc s x).get "uw_dr_table.bw" = some [.int .u32 0, .int .u32 0, .int .u32 0, .int .u32 0, .int .u32 0, .int .u32 0] := (rfl)
@[csem] theorem get_uw_tx_power_table : (enc s x).get "uw_tx_power_table" = some [.int .u8 0, .int .u8 2, .int .u8 4, .int .u8 6, .int .u8 8, .int .u8 10, .int .u8 12, .int .u8 14] := (rfl)
@[csem] theorem get_uw_max_app_pld_size : (enc s x).get "uw_max_app_pld_size" = some [.int .u8 51, .int .u8 51, .int .u8 51, .int .u8 115, .int .u8 222, .int .u8 222] := (rfl)
@[csem] theorem put_uw_channels_mask (a b : Byte) : (enc s x).put "uw_channels_mask" [.int .u8 a.toNat, .int .u8 b.toNat] = enc { s with chan := { s.chan with mask := ⟨a, b⟩ } } x   := (rfl)
@[csem] theorem put_uw_channels_max_count (n : Int) (h0 : 0 ≤ n) (h1 : n < 256) : (enc s x).put "uw_channels_max_count" [.int .u8 n] =
    enc { s with chan := { s.chan with maxCount := n.toNat } } x := by
  rw [← u8_toNat n h0 h1]; exact (rfl)
@[csem] theorem put_uw_channels (v : Vector U32 16) : (enc s x).put "uw_channels" (v.toList.map u32Val) = enc { s with chan := { s.chan with freq := v } } x   := (rfl)
@[csem] theorem put_uw_session_nwk_s_key (v : Block) : (enc s x).put "uw_session.nwk_s_key" (v.toList.map byteVal) = enc { s with session := { s.session with nwkSKey := v } } x   := (rfl)
@[csem] theorem put_uw_session_app_s_key (v : Block) : (enc s x).put "uw_session.app_s_key" (v.toList.map byteVal) = enc { s with session := { s.session with appSKey := v } } x   := (rfl)
@[csem] theorem put_uw_dev_eui (v : Vector Byte 8) : (enc s x).put "uw_dev_eui" (v.toList.map byteVal) = enc { s with devEui := v } x   := (rfl)
@[csem] theorem put_uw_app_eui (v : Vector Byte 8) : (enc s x).put "uw_app_eui" (v.toList.map byteVal) = enc { s with appEui := v } x   := (rfl)
@[csem] theorem put_uw_app_key (v : Block) : (enc s x).put "uw_app_key" (v.toList.map byteVal) = enc { s with appKey := v } x   := (rfl)
@[csem] theorem put_uw_frame (l : Bytes) : (enc s x).put "uw_frame" (l.map byteVal) = enc { s with frame := l } x   := (rfl)
@[csem] theorem put_uw_state_idle : (enc s x).put "uw_state" [.int .u32 1] = enc { s with phase := .idle } x   := (rfl)
@[csem] theorem put_uw_state_tx : (enc s x).put "uw_state" [.int .u32 2] = enc { s with phase := .tx } x   := (rfl)
@[csem] theorem put_uw_state_rx1 : (enc s x).put "uw_state" [.int .u32 3] = enc { s with phase := .rx1 } x   := (rfl)
@[csem] theorem put_uw_state_rx2 : (enc s x).put "uw_state" [.int .u32 4] = enc { s with phase := .rx2 } x   := (rfl)
@[csem] theorem put_pkt_params_sf_sf6 : (enc s x).put "pkt_params.sf" [.int .u32 0] = enc { s with pp := { s.pp with sf := .sf6 } } x   := (rfl)
@[csem] theorem put_pkt_params_sf_sf7 : (enc s x).put "pkt_params.sf" [.int .u32 1] = enc { s with pp := { s.pp with sf := .sf7 } } x   := (rfl)
@[csem] theorem put_pkt_params_sf_sf8 : (enc s x).put "pkt_params.sf" [.int .u32 2] = enc { s with pp := { s.pp with sf := .sf8 } } x   := (rfl)
@[csem] theorem put_pkt_params_sf_sf9 : (enc s x).put "pkt_params.sf" [.int .u32 3] = enc { s with pp := { s.pp with sf := .sf9 } } x   := (rfl)
@[csem] theorem put_pkt_params_sf_sf10 : (enc s x).put "pkt_params.sf" [.int .u32 4] = enc { s with pp := { s.pp with sf := .sf10 } } x   := (rfl)
@[csem] theorem put_pkt_params_sf_sf11 : (enc s x).put "pkt_params.sf" [.int .u32 5] = enc { s with pp := { s.pp with sf := .sf11 } } x   := (rfl)
@[csem] theorem put_pkt_params_sf_sf12 : (enc s x).put "pkt_params.sf" [.int .u32 6] = enc { s with pp := { s.pp with sf := .sf12 } } x   := (rfl)
@[csem] theorem put_pkt_params_bw_125 : (enc s x).put "pkt_params.bw" [.int .u32 0] = enc { s with pp := { s.pp with bw := .bw125 } } x   := (rfl)
@[csem] theorem put_pkt_params_cr_45 : (enc s x).put "pkt_params.cr" [.int .u32 0] = enc { s with pp := { s.pp with cr := .cr45 } } x   := (rfl)
@[csem] theorem put_pkt_params_preamble_len_8 : (enc s x).put "pkt_params.preamble_len" [.int .u16 8] = enc { s with pp := { s.pp with preambleLen := 8 } } x   := (rfl)

end Uwan.C
