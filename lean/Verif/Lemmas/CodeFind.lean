import Verif.Lemmas.CodeEnc

/-! # Looking functions up -/

namespace Uwan.C

theorem find_utils_random_init : Src.prog.find "utils_random_init" = some Src.utils_random_init := (rfl)
theorem find_utils_get_random : Src.prog.find "utils_get_random" = some Src.utils_get_random := (rfl)
theorem find_utils_unix_to_gps : Src.prog.find "utils_unix_to_gps" = some Src.utils_unix_to_gps := (rfl)
theorem find_utils_gps_to_unix : Src.prog.find "utils_gps_to_unix" = some Src.utils_gps_to_unix := (rfl)
theorem find_channels_init : Src.prog.find "channels_init" = some Src.channels_init := (rfl)
theorem find_channels_get_next : Src.prog.find "channels_get_next" = some Src.channels_get_next := (rfl)
theorem find_channels_enable_all : Src.prog.find "channels_enable_all" = some Src.channels_enable_all := (rfl)
theorem find_channel_is_exist : Src.prog.find "channel_is_exist" = some Src.channel_is_exist := (rfl)
theorem find_uwan_enable_channel : Src.prog.find "uwan_enable_channel" = some Src.uwan_enable_channel := (rfl)
theorem find_uwan_set_channel : Src.prog.find "uwan_set_channel" = some Src.uwan_set_channel := (rfl)
theorem find_region_86x_handle_cflist : Src.prog.find "region_86x_handle_cflist" = some Src.region_86x_handle_cflist := (rfl)
theorem find_region_86x_handle_adr_ch_mask : Src.prog.find "region_86x_handle_adr_ch_mask" = some Src.region_86x_handle_adr_ch_mask := (rfl)
theorem find_eu868_init : Src.prog.find "eu868_init" = some Src.eu868_init := (rfl)
theorem find_eu868_handle_cflist : Src.prog.find "eu868_handle_cflist" = some Src.eu868_handle_cflist := (rfl)
theorem find_ru864_init : Src.prog.find "ru864_init" = some Src.ru864_init := (rfl)
theorem find_ru864_handle_cflist : Src.prog.find "ru864_handle_cflist" = some Src.ru864_handle_cflist := (rfl)
theorem find_uwan_adr_is_enabled : Src.prog.find "uwan_adr_is_enabled" = some Src.uwan_adr_is_enabled := (rfl)
theorem find_uwan_adr_enable : Src.prog.find "uwan_adr_enable" = some Src.uwan_adr_enable := (rfl)
theorem find_uwan_adr_setup_ack : Src.prog.find "uwan_adr_setup_ack" = some Src.uwan_adr_setup_ack := (rfl)
theorem find_adr_get_req_bit : Src.prog.find "adr_get_req_bit" = some Src.adr_get_req_bit := (rfl)
theorem find_adr_handle_link_req : Src.prog.find "adr_handle_link_req" = some Src.adr_handle_link_req := (rfl)
theorem find_adr_handle_uplink : Src.prog.find "adr_handle_uplink" = some Src.adr_handle_uplink := (rfl)
theorem find_adr_handle_downlink : Src.prog.find "adr_handle_downlink" = some Src.adr_handle_downlink := (rfl)
theorem find_link_check : Src.prog.find "link_check" = some Src.link_check := (rfl)
theorem find_link_adr : Src.prog.find "link_adr" = some Src.link_adr := (rfl)
theorem find_duty_cycle : Src.prog.find "duty_cycle" = some Src.duty_cycle := (rfl)
theorem find_rx_param_setup : Src.prog.find "rx_param_setup" = some Src.rx_param_setup := (rfl)
theorem find_dev_status : Src.prog.find "dev_status" = some Src.dev_status := (rfl)
theorem find_new_channel : Src.prog.find "new_channel" = some Src.new_channel := (rfl)
theorem find_rx_timing_setup : Src.prog.find "rx_timing_setup" = some Src.rx_timing_setup := (rfl)
theorem find_device_time : Src.prog.find "device_time" = some Src.device_time := (rfl)
theorem find_tx_param_setup : Src.prog.find "tx_param_setup" = some Src.tx_param_setup := (rfl)
theorem find_di_channel : Src.prog.find "di_channel" = some Src.di_channel := (rfl)
theorem find_uwan_mac_set_handlers : Src.prog.find "uwan_mac_set_handlers" = some Src.uwan_mac_set_handlers := (rfl)
theorem find_uwan_mac_link_check_req : Src.prog.find "uwan_mac_link_check_req" = some Src.uwan_mac_link_check_req := (rfl)
theorem find_uwan_mac_device_time_req : Src.prog.find "uwan_mac_device_time_req" = some Src.uwan_mac_device_time_req := (rfl)
theorem find_mac_init : Src.prog.find "mac_init" = some Src.mac_init := (rfl)
theorem find_mac_handle_commands : Src.prog.find "mac_handle_commands" = some Src.mac_handle_commands := (rfl)
theorem find_mac_enqueue : Src.prog.find "mac_enqueue" = some Src.mac_enqueue := (rfl)
theorem find_mac_on_tx_complete : Src.prog.find "mac_on_tx_complete" = some Src.mac_on_tx_complete := (rfl)
theorem find_mac_get_payload_size : Src.prog.find "mac_get_payload_size" = some Src.mac_get_payload_size := (rfl)
theorem find_mac_get_payload : Src.prog.find "mac_get_payload" = some Src.mac_get_payload := (rfl)
theorem find_apply_tx_power : Src.prog.find "apply_tx_power" = some Src.apply_tx_power := (rfl)
theorem find_get_current_dr : Src.prog.find "get_current_dr" = some Src.get_current_dr := (rfl)
theorem find_encrypt_payload : Src.prog.find "encrypt_payload" = some Src.encrypt_payload := (rfl)
theorem find_calc_mic : Src.prog.find "calc_mic" = some Src.calc_mic := (rfl)
theorem find_derive_session_key : Src.prog.find "derive_session_key" = some Src.derive_session_key := (rfl)
theorem find_handle_join_msg : Src.prog.find "handle_join_msg" = some Src.handle_join_msg := (rfl)
theorem find_handle_data_msg : Src.prog.find "handle_data_msg" = some Src.handle_data_msg := (rfl)
theorem find_handle_downlink : Src.prog.find "handle_downlink" = some Src.handle_downlink := (rfl)
theorem find_evt_handler : Src.prog.find "evt_handler" = some Src.evt_handler := (rfl)
theorem find_uwan_init : Src.prog.find "uwan_init" = some Src.uwan_init := (rfl)
theorem find_uwan_set_otaa_keys : Src.prog.find "uwan_set_otaa_keys" = some Src.uwan_set_otaa_keys := (rfl)
theorem find_uwan_set_session : Src.prog.find "uwan_set_session" = some Src.uwan_set_session := (rfl)
theorem find_uwan_is_joined : Src.prog.find "uwan_is_joined" = some Src.uwan_is_joined := (rfl)
theorem find_uwan_set_rx2 : Src.prog.find "uwan_set_rx2" = some Src.uwan_set_rx2 := (rfl)
theorem find_uwan_join : Src.prog.find "uwan_join" = some Src.uwan_join := (rfl)
theorem find_uwan_get_max_payload_size : Src.prog.find "uwan_get_max_payload_size" = some Src.uwan_get_max_payload_size := (rfl)
theorem find_uwan_send_frame : Src.prog.find "uwan_send_frame" = some Src.uwan_send_frame := (rfl)
theorem find_uwan_timer_callback : Src.prog.find "uwan_timer_callback" = some Src.uwan_timer_callback := (rfl)
theorem find_uwan_set_dr : Src.prog.find "uwan_set_dr" = some Src.uwan_set_dr := (rfl)
theorem find_uwan_set_nb_trans : Src.prog.find "uwan_set_nb_trans" = some Src.uwan_set_nb_trans := (rfl)
theorem find_uwan_set_max_eirp : Src.prog.find "uwan_set_max_eirp" = some Src.uwan_set_max_eirp := (rfl)
theorem find_uwan_set_tx_power : Src.prog.find "uwan_set_tx_power" = some Src.uwan_set_tx_power := (rfl)
theorem find_uwan_set_rx1_dr_offset : Src.prog.find "uwan_set_rx1_dr_offset" = some Src.uwan_set_rx1_dr_offset := (rfl)
theorem find_uwan_set_rx1_delay : Src.prog.find "uwan_set_rx1_delay" = some Src.uwan_set_rx1_delay := (rfl)
theorem find_is_valid_dr : Src.prog.find "is_valid_dr" = some Src.is_valid_dr := (rfl)
theorem find_is_valid_frequency : Src.prog.find "is_valid_frequency" = some Src.is_valid_frequency := (rfl)
theorem find_set_nb_trans : Src.prog.find "set_nb_trans" = some Src.set_nb_trans := (rfl)
theorem find_reset_nb_trans : Src.prog.find "reset_nb_trans" = some Src.reset_nb_trans := (rfl)
theorem find_is_valid_tx_power : Src.prog.find "is_valid_tx_power" = some Src.is_valid_tx_power := (rfl)
theorem find_set_tx_power : Src.prog.find "set_tx_power" = some Src.set_tx_power := (rfl)
theorem find_get_snr : Src.prog.find "get_snr" = some Src.get_snr := (rfl)
theorem find_periodicity_from_period_id : Src.prog.find "periodicity_from_period_id" = some Src.periodicity_from_period_id := (rfl)
theorem find_handle_answ : Src.prog.find "handle_answ" = some Src.handle_answ := (rfl)
theorem find_uwan_clock_sync_init : Src.prog.find "uwan_clock_sync_init" = some Src.uwan_clock_sync_init := (rfl)
theorem find_uwan_clock_sync_handle_time_answ : Src.prog.find "uwan_clock_sync_handle_time_answ" = some Src.uwan_clock_sync_handle_time_answ := (rfl)
theorem find_uwan_clock_sync_send_time_req : Src.prog.find "uwan_clock_sync_send_time_req" = some Src.uwan_clock_sync_send_time_req := (rfl)
theorem find_uwan_clock_sync_is_answ_pending : Src.prog.find "uwan_clock_sync_is_answ_pending" = some Src.uwan_clock_sync_is_answ_pending := (rfl)
theorem find_uwan_clock_sync_send_answ : Src.prog.find "uwan_clock_sync_send_answ" = some Src.uwan_clock_sync_send_answ := (rfl)
theorem find_memcpy : Src.prog.find "memcpy" = none := (rfl)
theorem find_memset : Src.prog.find "memset" = none := (rfl)
theorem find_memcmp : Src.prog.find "memcmp" = none := (rfl)
theorem find_rand : Src.prog.find "rand" = none := (rfl)
theorem find_srand : Src.prog.find "srand" = none := (rfl)

end Uwan.C
