import Verif.Code.Sem

/-! Printed by `tools/c2lean.py` from `src/stack.c`; do not edit. -/

namespace Uwan.C.Src

/-- The variables of src/stack.c, as they start. -/
def stackVars : Objs := [
  ("uw_dr_table.sf", [.int .u32 6, .int .u32 5, .int .u32 4, .int .u32 3, .int .u32 2, .int .u32 1]),
  ("uw_dr_table.bw", List.replicate 6 (.int .u32 0)),
  ("uw_tx_power_table", [.int .u8 0, .int .u8 2, .int .u8 4, .int .u8 6, .int .u8 8, .int .u8 10, .int .u8 12, .int .u8 14]),
  ("uw_max_app_pld_size", [.int .u8 51, .int .u8 51, .int .u8 51, .int .u8 115, .int .u8 222, .int .u8 222]),
  ("uw_region", [.null]),
  ("uw_session.is_joined", [.int .bool 0]),
  ("uw_session.ack_required", [.int .bool 0]),
  ("uw_session.dr", [.int .u32 0]),
  ("uw_session.dev_addr", [.int .u32 0]),
  ("uw_session.f_cnt_up", [.int .u32 0]),
  ("uw_session.f_cnt_down", [.int .u32 0]),
  ("uw_session.nwk_s_key", List.replicate 16 (.int .u8 0)),
  ("uw_session.app_s_key", List.replicate 16 (.int .u8 0)),
  ("uw_radio", [.null]),
  ("uw_stack_hal", [.null]),
  ("pkt_params.sf", [.int .u32 0]),
  ("pkt_params.bw", [.int .u32 0]),
  ("pkt_params.cr", [.int .u32 0]),
  ("pkt_params.preamble_len", [.int .u16 0]),
  ("pkt_params.crc_on", [.int .bool 0]),
  ("pkt_params.inverted_iq", [.int .bool 0]),
  ("pkt_params.implicit_header", [.int .bool 0]),
  ("uw_frame", List.replicate 255 (.int .u8 0)),
  ("uw_state", [.int .u32 0]),
  ("uw_rx1_delay", [.int .u32 0]),
  ("uw_rx1_offset", [.int .u8 0]),
  ("uw_rx2_delay", [.int .u32 0]),
  ("uw_is_join_state", [.int .bool 0]),
  ("uw_dev_nonce", [.int .u32 0]),
  ("uw_dev_eui", List.replicate 8 (.int .u8 0)),
  ("uw_app_eui", List.replicate 8 (.int .u8 0)),
  ("uw_app_key", List.replicate 16 (.int .u8 0)),
  ("default_join_delay", [.int .u32 5000]),
  ("default_rx1_delay", [.int .u32 1000]),
  ("default_dr", [.int .u32 0]),
  ("default_nb_trans", [.int .u8 1]),
  ("uw_nb_trans", [.int .u8 1]),
  ("default_tx_power", [.int .u8 0]),
  ("uw_tx_power", [.int .u8 0]),
  ("default_max_eirp", [.int .i8 14]),
  ("current_snr", [.int .i8 0]),
  ("uw_rx2_frequency", [.int .u32 0]),
  ("uw_rx2_dr", [.int .u32 0])]

/-- src/stack.c:125-129 -/
def apply_tx_power : Fun where
  params := []
  result := none
  body :=
    .seq (.decl "power" ([.uninit (some .i32)]))
    (.seq (.expr (.asg (.loc "power") (.bin .sub (.load (.glob "default_max_eirp")) (.load (.elem (.addr (.glob "uw_tx_power_table")) (.load (.glob "uw_tx_power")))))))
      (.expr (.call (.load (.fld (.elem (.load (.glob "uw_radio")) (.lit .i32 0)) ".set_power")) (.cons (.load (.loc "power")) (.nil)))))

/-- src/stack.c:131-137 -/
def get_current_dr : Fun where
  params := []
  result := some .u32
  body :=
    .seq (.ite (.call (.fn "uwan_adr_is_enabled") (.nil))
      (.retVal (.load (.glob "uw_session.dr")))
      (.skip))
    (.retVal (.load (.glob "default_dr")))

/-- src/stack.c:139-181 -/
def encrypt_payload : Fun where
  params := [("buf", none), ("size", some .u8), ("key", none), ("dir", some .u8)]
  result := none
  body :=
    .seq (.decl "a_block" (List.replicate 16 (.uninit (some .u8))))
    (.seq (.decl "s_block" (List.replicate 16 (.uninit (some .u8))))
      (.seq (.decl "a_block_i" ([.uninit (some .u8)]))
        (.seq (.expr (.asg (.loc "a_block_i") (.lit .i32 1)))
          (.seq (.decl "src_pos" ([.uninit (some .u8)]))
            (.seq (.expr (.asg (.loc "src_pos") (.lit .i32 0)))
              (.seq (.decl "f_cnt" ([.uninit (some .u32)]))
                (.seq (.expr (.asg (.loc "f_cnt") (.cond (.load (.loc "dir")) (.load (.glob "uw_session.f_cnt_down")) (.load (.glob "uw_session.f_cnt_up")))))
                  (.seq (.decl "pos" ([.uninit (some .u8)]))
                    (.seq (.expr (.asg (.loc "pos") (.lit .i32 0)))
                      (.seq (.expr (.asg (.elem (.addr (.loc "a_block")) (.post .add (.loc "pos"))) (.lit .i32 1)))
                        (.seq (.expr (.asg (.elem (.addr (.loc "a_block")) (.post .add (.loc "pos"))) (.lit .i32 0)))
                          (.seq (.expr (.asg (.elem (.addr (.loc "a_block")) (.post .add (.loc "pos"))) (.lit .i32 0)))
                            (.seq (.expr (.asg (.elem (.addr (.loc "a_block")) (.post .add (.loc "pos"))) (.lit .i32 0)))
                              (.seq (.expr (.asg (.elem (.addr (.loc "a_block")) (.post .add (.loc "pos"))) (.lit .i32 0)))
                                (.seq (.expr (.asg (.elem (.addr (.loc "a_block")) (.post .add (.loc "pos"))) (.load (.loc "dir"))))
                                  (.seq (.expr (.asg (.elem (.addr (.loc "a_block")) (.post .add (.loc "pos"))) (.bin .and (.load (.glob "uw_session.dev_addr")) (.lit .i32 255))))
                                    (.seq (.expr (.asg (.elem (.addr (.loc "a_block")) (.post .add (.loc "pos"))) (.bin .and (.bin .shr (.load (.glob "uw_session.dev_addr")) (.lit .i32 8)) (.lit .i32 255))))
                                      (.seq (.expr (.asg (.elem (.addr (.loc "a_block")) (.post .add (.loc "pos"))) (.bin .and (.bin .shr (.load (.glob "uw_session.dev_addr")) (.lit .i32 16)) (.lit .i32 255))))
                                        (.seq (.expr (.asg (.elem (.addr (.loc "a_block")) (.post .add (.loc "pos"))) (.bin .and (.bin .shr (.load (.glob "uw_session.dev_addr")) (.lit .i32 24)) (.lit .i32 255))))
                                          (.seq (.expr (.asg (.elem (.addr (.loc "a_block")) (.post .add (.loc "pos"))) (.bin .and (.load (.loc "f_cnt")) (.lit .i32 255))))
                                            (.seq (.expr (.asg (.elem (.addr (.loc "a_block")) (.post .add (.loc "pos"))) (.bin .and (.bin .shr (.load (.loc "f_cnt")) (.lit .i32 8)) (.lit .i32 255))))
                                              (.seq (.expr (.asg (.elem (.addr (.loc "a_block")) (.post .add (.loc "pos"))) (.bin .and (.bin .shr (.load (.loc "f_cnt")) (.lit .i32 16)) (.lit .i32 255))))
                                                (.seq (.expr (.asg (.elem (.addr (.loc "a_block")) (.post .add (.loc "pos"))) (.bin .and (.bin .shr (.load (.loc "f_cnt")) (.lit .i32 24)) (.lit .i32 255))))
                                                  (.seq (.expr (.asg (.elem (.addr (.loc "a_block")) (.post .add (.loc "pos"))) (.lit .i32 0)))
                                                    (.seq (.decl "ctx" ([.uninit none]))
                                                      (.seq (.expr (.asg (.loc "ctx") (.call (.load (.fld (.elem (.load (.glob "uw_stack_hal")) (.lit .i32 0)) ".crypto_aes_create_context")) (.cons (.load (.loc "key")) (.nil)))))
                                                        (.seq (.loop (.bin .gt (.load (.loc "size")) (.lit .i32 0)) (.expr (.post .add (.loc "a_block_i")))
                                                            (.seq (.expr (.asg (.elem (.addr (.loc "a_block")) (.load (.loc "pos"))) (.load (.loc "a_block_i"))))
                                                              (.seq (.expr (.call (.load (.fld (.elem (.load (.glob "uw_stack_hal")) (.lit .i32 0)) ".crypto_aes_encrypt")) (.cons (.load (.loc "ctx")) (.cons (.addr (.loc "s_block")) (.cons (.addr (.loc "a_block")) (.nil))))))
                                                                (.seq (.decl "chunk_size" ([.uninit (some .u8)]))
                                                                  (.seq (.expr (.asg (.loc "chunk_size") (.cond (.bin .ge (.load (.loc "size")) (.lit .i32 16)) (.lit .i32 16) (.load (.loc "size")))))
                                                                    (.seq (.decl "i" ([.uninit (some .u8)]))
                                                                      (.seq (.expr (.asg (.loc "i") (.lit .i32 0)))
                                                                        (.seq (.loop (.bin .lt (.load (.loc "i")) (.load (.loc "chunk_size"))) (.seq (.expr (.post .add (.loc "i")))
                                                                              (.expr (.post .add (.loc "src_pos"))))
                                                                            (.expr (.asg (.elem (.load (.loc "buf")) (.load (.loc "src_pos"))) (.bin .xor (.load (.elem (.load (.loc "buf")) (.load (.loc "src_pos")))) (.load (.elem (.addr (.loc "s_block")) (.load (.loc "i"))))))))
                                                                          (.expr (.asgOp .sub (.loc "size") (.load (.loc "chunk_size"))))))))))))
                                                          (.expr (.call (.load (.fld (.elem (.load (.glob "uw_stack_hal")) (.lit .i32 0)) ".crypto_aes_delete_context")) (.cons (.load (.loc "ctx")) (.nil)))))))))))))))))))))))))))))))

/-- src/stack.c:183-220 -/
def calc_mic : Fun where
  params := [("mic", none), ("msg", none), ("msg_len", some .u8), ("key", none), ("dir", some .u8), ("b0", some .bool)]
  result := none
  body :=
    .seq (.decl "cmac_mic" (List.replicate 16 (.uninit (some .u8))))
    (.seq (.decl "ctx" ([.uninit none]))
      (.seq (.expr (.asg (.loc "ctx") (.call (.load (.fld (.elem (.load (.glob "uw_stack_hal")) (.lit .i32 0)) ".crypto_cmac_create_context")) (.cons (.load (.loc "key")) (.nil)))))
        (.seq (.ite (.load (.loc "b0"))
            (.seq (.decl "block_b0" (List.replicate 16 (.uninit (some .u8))))
              (.seq (.decl "pos" ([.uninit (some .u8)]))
                (.seq (.expr (.asg (.loc "pos") (.lit .i32 0)))
                  (.seq (.decl "f_cnt" ([.uninit (some .u32)]))
                    (.seq (.expr (.asg (.loc "f_cnt") (.cond (.load (.loc "dir")) (.load (.glob "uw_session.f_cnt_down")) (.load (.glob "uw_session.f_cnt_up")))))
                      (.seq (.expr (.asg (.elem (.addr (.loc "block_b0")) (.post .add (.loc "pos"))) (.lit .i32 73)))
                        (.seq (.expr (.asg (.elem (.addr (.loc "block_b0")) (.post .add (.loc "pos"))) (.lit .i32 0)))
                          (.seq (.expr (.asg (.elem (.addr (.loc "block_b0")) (.post .add (.loc "pos"))) (.lit .i32 0)))
                            (.seq (.expr (.asg (.elem (.addr (.loc "block_b0")) (.post .add (.loc "pos"))) (.lit .i32 0)))
                              (.seq (.expr (.asg (.elem (.addr (.loc "block_b0")) (.post .add (.loc "pos"))) (.lit .i32 0)))
                                (.seq (.expr (.asg (.elem (.addr (.loc "block_b0")) (.post .add (.loc "pos"))) (.load (.loc "dir"))))
                                  (.seq (.expr (.asg (.elem (.addr (.loc "block_b0")) (.post .add (.loc "pos"))) (.bin .and (.load (.glob "uw_session.dev_addr")) (.lit .i32 255))))
                                    (.seq (.expr (.asg (.elem (.addr (.loc "block_b0")) (.post .add (.loc "pos"))) (.bin .and (.bin .shr (.load (.glob "uw_session.dev_addr")) (.lit .i32 8)) (.lit .i32 255))))
                                      (.seq (.expr (.asg (.elem (.addr (.loc "block_b0")) (.post .add (.loc "pos"))) (.bin .and (.bin .shr (.load (.glob "uw_session.dev_addr")) (.lit .i32 16)) (.lit .i32 255))))
                                        (.seq (.expr (.asg (.elem (.addr (.loc "block_b0")) (.post .add (.loc "pos"))) (.bin .and (.bin .shr (.load (.glob "uw_session.dev_addr")) (.lit .i32 24)) (.lit .i32 255))))
                                          (.seq (.expr (.asg (.elem (.addr (.loc "block_b0")) (.post .add (.loc "pos"))) (.bin .and (.load (.loc "f_cnt")) (.lit .i32 255))))
                                            (.seq (.expr (.asg (.elem (.addr (.loc "block_b0")) (.post .add (.loc "pos"))) (.bin .and (.bin .shr (.load (.loc "f_cnt")) (.lit .i32 8)) (.lit .i32 255))))
                                              (.seq (.expr (.asg (.elem (.addr (.loc "block_b0")) (.post .add (.loc "pos"))) (.bin .and (.bin .shr (.load (.loc "f_cnt")) (.lit .i32 16)) (.lit .i32 255))))
                                                (.seq (.expr (.asg (.elem (.addr (.loc "block_b0")) (.post .add (.loc "pos"))) (.bin .and (.bin .shr (.load (.loc "f_cnt")) (.lit .i32 24)) (.lit .i32 255))))
                                                  (.seq (.expr (.asg (.elem (.addr (.loc "block_b0")) (.post .add (.loc "pos"))) (.lit .i32 0)))
                                                    (.seq (.expr (.asg (.elem (.addr (.loc "block_b0")) (.post .add (.loc "pos"))) (.load (.loc "msg_len"))))
                                                      (.expr (.call (.load (.fld (.elem (.load (.glob "uw_stack_hal")) (.lit .i32 0)) ".crypto_cmac_update")) (.cons (.load (.loc "ctx")) (.cons (.addr (.loc "block_b0")) (.cons (.lit .u32 16) (.nil)))))))))))))))))))))))))))
            (.skip))
          (.seq (.expr (.call (.load (.fld (.elem (.load (.glob "uw_stack_hal")) (.lit .i32 0)) ".crypto_cmac_update")) (.cons (.load (.loc "ctx")) (.cons (.load (.loc "msg")) (.cons (.load (.loc "msg_len")) (.nil))))))
            (.seq (.expr (.call (.load (.fld (.elem (.load (.glob "uw_stack_hal")) (.lit .i32 0)) ".crypto_cmac_finish")) (.cons (.load (.loc "ctx")) (.cons (.addr (.loc "cmac_mic")) (.nil)))))
              (.seq (.expr (.call (.load (.fld (.elem (.load (.glob "uw_stack_hal")) (.lit .i32 0)) ".crypto_cmac_delete_context")) (.cons (.load (.loc "ctx")) (.nil))))
                (.expr (.call (.fn "memcpy") (.cons (.load (.loc "mic")) (.cons (.addr (.loc "cmac_mic")) (.cons (.lit .i32 4) (.nil))))))))))))

/-- src/stack.c:222-241 -/
def derive_session_key : Fun where
  params := [("key", none), ("key_type", some .u8), ("app_nonce", some .u32), ("net_id", some .u32)]
  result := none
  body :=
    .seq (.decl "offset" ([.uninit (some .u8)]))
    (.seq (.expr (.asg (.loc "offset") (.lit .i32 0)))
      (.seq (.expr (.asg (.elem (.load (.loc "key")) (.post .add (.loc "offset"))) (.load (.loc "key_type"))))
        (.seq (.expr (.asg (.elem (.load (.loc "key")) (.post .add (.loc "offset"))) (.bin .and (.load (.loc "app_nonce")) (.lit .i32 255))))
          (.seq (.expr (.asg (.elem (.load (.loc "key")) (.post .add (.loc "offset"))) (.bin .and (.bin .shr (.load (.loc "app_nonce")) (.lit .i32 8)) (.lit .i32 255))))
            (.seq (.expr (.asg (.elem (.load (.loc "key")) (.post .add (.loc "offset"))) (.bin .and (.bin .shr (.load (.loc "app_nonce")) (.lit .i32 16)) (.lit .i32 255))))
              (.seq (.expr (.asg (.elem (.load (.loc "key")) (.post .add (.loc "offset"))) (.bin .and (.load (.loc "net_id")) (.lit .i32 255))))
                (.seq (.expr (.asg (.elem (.load (.loc "key")) (.post .add (.loc "offset"))) (.bin .and (.bin .shr (.load (.loc "net_id")) (.lit .i32 8)) (.lit .i32 255))))
                  (.seq (.expr (.asg (.elem (.load (.loc "key")) (.post .add (.loc "offset"))) (.bin .and (.bin .shr (.load (.loc "net_id")) (.lit .i32 16)) (.lit .i32 255))))
                    (.seq (.expr (.asg (.elem (.load (.loc "key")) (.post .add (.loc "offset"))) (.bin .and (.load (.glob "uw_dev_nonce")) (.lit .i32 255))))
                      (.seq (.expr (.asg (.elem (.load (.loc "key")) (.post .add (.loc "offset"))) (.bin .and (.bin .shr (.load (.glob "uw_dev_nonce")) (.lit .i32 8)) (.lit .i32 255))))
                        (.seq (.loop (.bin .lt (.load (.loc "offset")) (.lit .i32 16)) .skip
                            (.expr (.asg (.elem (.load (.loc "key")) (.post .add (.loc "offset"))) (.lit .i32 0))))
                          (.seq (.decl "ctx" ([.uninit none]))
                            (.seq (.expr (.asg (.loc "ctx") (.call (.load (.fld (.elem (.load (.glob "uw_stack_hal")) (.lit .i32 0)) ".crypto_aes_create_context")) (.cons (.addr (.glob "uw_app_key")) (.nil)))))
                              (.seq (.expr (.call (.load (.fld (.elem (.load (.glob "uw_stack_hal")) (.lit .i32 0)) ".crypto_aes_encrypt")) (.cons (.load (.loc "ctx")) (.cons (.load (.loc "key")) (.cons (.load (.loc "key")) (.nil))))))
                                (.expr (.call (.load (.fld (.elem (.load (.glob "uw_stack_hal")) (.lit .i32 0)) ".crypto_aes_delete_context")) (.cons (.load (.loc "ctx")) (.nil))))))))))))))))))

/-- src/stack.c:243-318 -/
def handle_join_msg : Fun where
  params := [("pkt", none)]
  result := some .u32
  body :=
    .seq (.decl "buf" ([.uninit none]))
    (.seq (.expr (.asg (.loc "buf") (.load (.fld (.elem (.load (.loc "pkt")) (.lit .i32 0)) ".data"))))
      (.seq (.decl "mhdr" ([.uninit (some .u8)]))
        (.seq (.decl "mic" (List.replicate 4 (.uninit (some .u8))))
          (.seq (.decl "offset" ([.uninit (some .u8)]))
            (.seq (.expr (.asg (.loc "offset") (.lit .i32 0)))
              (.seq (.decl "cflist" ([.uninit (some .bool)]))
                (.seq (.ite (.bin .eq (.load (.fld (.elem (.load (.loc "pkt")) (.lit .i32 0)) ".size")) (.bin .add (.lit .i32 16) (.lit .i32 1)))
                    (.expr (.asg (.loc "cflist") (.lit .i32 0)))
                    (.ite (.bin .eq (.load (.fld (.elem (.load (.loc "pkt")) (.lit .i32 0)) ".size")) (.bin .add (.bin .mul (.lit .i32 2) (.lit .i32 16)) (.lit .i32 1)))
                      (.expr (.asg (.loc "cflist") (.lit .i32 1)))
                      (.retVal (.lit .i32 7))))
                  (.seq (.expr (.asg (.loc "mhdr") (.load (.elem (.load (.loc "buf")) (.post .add (.loc "offset"))))))
                    (.seq (.ite (.bin .ne (.load (.loc "mhdr")) (.bin .or (.bin .shl (.lit .i32 1) (.lit .i32 5)) (.bin .shl (.lit .i32 0) (.lit .i32 0))))
                        (.retVal (.lit .i32 8))
                        (.skip))
                      (.seq (.decl "ctx" ([.uninit none]))
                        (.seq (.expr (.asg (.loc "ctx") (.call (.load (.fld (.elem (.load (.glob "uw_stack_hal")) (.lit .i32 0)) ".crypto_aes_create_context")) (.cons (.addr (.glob "uw_app_key")) (.nil)))))
                          (.seq (.expr (.call (.load (.fld (.elem (.load (.glob "uw_stack_hal")) (.lit .i32 0)) ".crypto_aes_encrypt")) (.cons (.load (.loc "ctx")) (.cons (.bin .add (.load (.loc "buf")) (.lit .u32 1)) (.cons (.bin .add (.load (.loc "buf")) (.lit .u32 1)) (.nil))))))
                            (.seq (.ite (.load (.loc "cflist"))
                                (.expr (.call (.load (.fld (.elem (.load (.glob "uw_stack_hal")) (.lit .i32 0)) ".crypto_aes_encrypt")) (.cons (.load (.loc "ctx")) (.cons (.bin .add (.bin .add (.load (.loc "buf")) (.lit .u32 1)) (.lit .i32 16)) (.cons (.bin .add (.bin .add (.load (.loc "buf")) (.lit .u32 1)) (.lit .i32 16)) (.nil))))))
                                (.skip))
                              (.seq (.expr (.call (.load (.fld (.elem (.load (.glob "uw_stack_hal")) (.lit .i32 0)) ".crypto_aes_delete_context")) (.cons (.load (.loc "ctx")) (.nil))))
                                (.seq (.expr (.call (.fn "calc_mic") (.cons (.addr (.loc "mic")) (.cons (.load (.loc "buf")) (.cons (.bin .sub (.load (.fld (.elem (.load (.loc "pkt")) (.lit .i32 0)) ".size")) (.lit .u32 4)) (.cons (.addr (.glob "uw_app_key")) (.cons (.lit .i32 0) (.cons (.lit .i32 0) (.nil)))))))))
                                  (.seq (.ite (.call (.fn "memcmp") (.cons (.bin .sub (.bin .add (.load (.loc "buf")) (.load (.fld (.elem (.load (.loc "pkt")) (.lit .i32 0)) ".size"))) (.lit .u32 4)) (.cons (.addr (.loc "mic")) (.cons (.lit .u32 4) (.nil)))))
                                      (.retVal (.lit .i32 9))
                                      (.skip))
                                    (.seq (.decl "app_nonce" ([.uninit (some .u32)]))
                                      (.seq (.decl "net_id" ([.uninit (some .u32)]))
                                        (.seq (.expr (.asg (.loc "app_nonce") (.load (.elem (.load (.loc "buf")) (.post .add (.loc "offset"))))))
                                          (.seq (.expr (.asgOp .or (.loc "app_nonce") (.bin .shl (.load (.elem (.load (.loc "buf")) (.post .add (.loc "offset")))) (.lit .i32 8))))
                                            (.seq (.expr (.asgOp .or (.loc "app_nonce") (.bin .shl (.load (.elem (.load (.loc "buf")) (.post .add (.loc "offset")))) (.lit .i32 16))))
                                              (.seq (.expr (.asg (.loc "net_id") (.load (.elem (.load (.loc "buf")) (.post .add (.loc "offset"))))))
                                                (.seq (.expr (.asgOp .or (.loc "net_id") (.bin .shl (.load (.elem (.load (.loc "buf")) (.post .add (.loc "offset")))) (.lit .i32 8))))
                                                  (.seq (.expr (.asgOp .or (.loc "net_id") (.bin .shl (.load (.elem (.load (.loc "buf")) (.post .add (.loc "offset")))) (.lit .i32 16))))
                                                    (.seq (.decl "dev_addr" ([.uninit (some .u32)]))
                                                      (.seq (.expr (.asg (.loc "dev_addr") (.load (.elem (.load (.loc "buf")) (.post .add (.loc "offset"))))))
                                                        (.seq (.expr (.asgOp .or (.loc "dev_addr") (.bin .shl (.load (.elem (.load (.loc "buf")) (.post .add (.loc "offset")))) (.lit .i32 8))))
                                                          (.seq (.expr (.asgOp .or (.loc "dev_addr") (.bin .shl (.load (.elem (.load (.loc "buf")) (.post .add (.loc "offset")))) (.lit .i32 16))))
                                                            (.seq (.expr (.asgOp .or (.loc "dev_addr") (.bin .shl (.load (.elem (.load (.loc "buf")) (.post .add (.loc "offset")))) (.lit .i32 24))))
                                                              (.seq (.decl "dl_settings" ([.uninit (some .u8)]))
                                                                (.seq (.expr (.asg (.loc "dl_settings") (.load (.elem (.load (.loc "buf")) (.post .add (.loc "offset"))))))
                                                                  (.seq (.decl "rx1_dr_offset" ([.uninit (some .u8)]))
                                                                    (.seq (.expr (.asg (.loc "rx1_dr_offset") (.bin .and (.bin .shr (.load (.loc "dl_settings")) (.lit .i32 4)) (.lit .i32 7))))
                                                                      (.seq (.decl "rx2_dr" ([.uninit (some .u8)]))
                                                                        (.seq (.expr (.asg (.loc "rx2_dr") (.bin .and (.load (.loc "dl_settings")) (.lit .i32 15))))
                                                                          (.seq (.ite (.call (.fn "is_valid_dr") (.cons (.load (.loc "rx1_dr_offset")) (.nil)))
                                                                              (.expr (.asg (.glob "uw_rx1_offset") (.load (.loc "rx1_dr_offset"))))
                                                                              (.skip))
                                                                            (.seq (.ite (.call (.fn "is_valid_dr") (.cons (.load (.loc "rx2_dr")) (.nil)))
                                                                                (.expr (.asg (.glob "uw_rx2_dr") (.cast .u32 (.load (.loc "rx2_dr")))))
                                                                                (.skip))
                                                                              (.seq (.decl "rx1_delay" ([.uninit (some .u8)]))
                                                                                (.seq (.expr (.asg (.loc "rx1_delay") (.bin .and (.load (.elem (.load (.loc "buf")) (.post .add (.loc "offset")))) (.lit .i32 15))))
                                                                                  (.seq (.ite (.bin .eq (.load (.loc "rx1_delay")) (.lit .i32 0))
                                                                                      (.expr (.asg (.loc "rx1_delay") (.lit .i32 1)))
                                                                                      (.skip))
                                                                                    (.seq (.expr (.asg (.glob "default_rx1_delay") (.bin .mul (.load (.loc "rx1_delay")) (.lit .i32 1000))))
                                                                                      (.seq (.ite (.load (.loc "cflist"))
                                                                                          (.expr (.call (.load (.fld (.elem (.load (.glob "uw_region")) (.lit .i32 0)) ".handle_cflist")) (.cons (.bin .add (.load (.loc "buf")) (.load (.loc "offset"))) (.nil))))
                                                                                          (.skip))
                                                                                        (.seq (.decl "nwk" ([.uninit (some .u8)]))
                                                                                          (.seq (.expr (.asg (.loc "nwk") (.lit .i32 1)))
                                                                                            (.seq (.decl "app" ([.uninit (some .u8)]))
                                                                                              (.seq (.expr (.asg (.loc "app") (.lit .i32 2)))
                                                                                                (.seq (.decl "nwk_s_key" (List.replicate 16 (.uninit (some .u8))))
                                                                                                  (.seq (.decl "app_s_key" (List.replicate 16 (.uninit (some .u8))))
                                                                                                    (.seq (.expr (.call (.fn "derive_session_key") (.cons (.addr (.loc "nwk_s_key")) (.cons (.load (.loc "nwk")) (.cons (.load (.loc "app_nonce")) (.cons (.load (.loc "net_id")) (.nil)))))))
                                                                                                      (.seq (.expr (.call (.fn "derive_session_key") (.cons (.addr (.loc "app_s_key")) (.cons (.load (.loc "app")) (.cons (.load (.loc "app_nonce")) (.cons (.load (.loc "net_id")) (.nil)))))))
                                                                                                        (.seq (.expr (.call (.fn "uwan_set_session") (.cons (.load (.loc "dev_addr")) (.cons (.lit .i32 0) (.cons (.lit .i32 0) (.cons (.addr (.loc "nwk_s_key")) (.cons (.addr (.loc "app_s_key")) (.nil))))))))
                                                                                                          (.retVal (.lit .i32 0)))))))))))))))))))))))))))))))))))))))))))))))))))))

/-- src/stack.c:320-415 -/
def handle_data_msg : Fun where
  params := [("pkt", none)]
  result := some .u32
  body :=
    .seq (.decl "mhdr" ([.uninit (some .u8)]))
    (.seq (.decl "dev_addr" ([.uninit (some .u32)]))
      (.seq (.decl "f_ctrl" ([.uninit (some .u8)]))
        (.seq (.decl "f_cnt" ([.uninit (some .u16)]))
          (.seq (.decl "f_opts_len" ([.uninit (some .u8)]))
            (.seq (.decl "mic" (List.replicate 4 (.uninit (some .u8))))
              (.seq (.decl "offset" ([.uninit (some .u8)]))
                (.seq (.expr (.asg (.loc "offset") (.lit .i32 0)))
                  (.seq (.decl "buf" ([.uninit none]))
                    (.seq (.expr (.asg (.loc "buf") (.load (.fld (.elem (.load (.loc "pkt")) (.lit .i32 0)) ".data"))))
                      (.seq (.decl "msg_min_size" ([.uninit (some .u8)]))
                        (.seq (.expr (.asg (.loc "msg_min_size") (.bin .add (.bin .add (.bin .add (.bin .add (.lit .u32 1) (.lit .u32 4)) (.lit .u32 1)) (.lit .u32 2)) (.lit .u32 4))))
                          (.seq (.ite (.bin .lt (.load (.fld (.elem (.load (.loc "pkt")) (.lit .i32 0)) ".size")) (.load (.loc "msg_min_size")))
                              (.retVal (.lit .i32 7))
                              (.skip))
                            (.seq (.expr (.asg (.loc "mhdr") (.load (.elem (.load (.loc "buf")) (.post .add (.loc "offset"))))))
                              (.seq (.ite (.bin .ne (.bin .and (.bin .shr (.load (.loc "mhdr")) (.lit .i32 0)) (.lit .i32 3)) (.lit .i32 0))
                                  (.retVal (.lit .i32 8))
                                  (.skip))
                                (.seq (.decl "mtype" ([.uninit (some .u8)]))
                                  (.seq (.expr (.asg (.loc "mtype") (.bin .and (.bin .shr (.load (.loc "mhdr")) (.lit .i32 5)) (.lit .i32 7))))
                                    (.seq (.ite (.and (.bin .ne (.load (.loc "mtype")) (.lit .i32 3)) (.bin .ne (.load (.loc "mtype")) (.lit .i32 5)))
                                        (.retVal (.lit .i32 8))
                                        (.skip))
                                      (.seq (.ite (.bin .eq (.load (.loc "mtype")) (.lit .i32 5))
                                          (.expr (.asg (.glob "uw_session.ack_required") (.lit .i32 1)))
                                          (.skip))
                                        (.seq (.expr (.asg (.loc "dev_addr") (.load (.elem (.load (.loc "buf")) (.post .add (.loc "offset"))))))
                                          (.seq (.expr (.asgOp .or (.loc "dev_addr") (.bin .shl (.load (.elem (.load (.loc "buf")) (.post .add (.loc "offset")))) (.lit .i32 8))))
                                            (.seq (.expr (.asgOp .or (.loc "dev_addr") (.bin .shl (.load (.elem (.load (.loc "buf")) (.post .add (.loc "offset")))) (.lit .i32 16))))
                                              (.seq (.expr (.asgOp .or (.loc "dev_addr") (.bin .shl (.load (.elem (.load (.loc "buf")) (.post .add (.loc "offset")))) (.lit .i32 24))))
                                                (.seq (.ite (.bin .ne (.load (.glob "uw_session.dev_addr")) (.load (.loc "dev_addr")))
                                                    (.retVal (.lit .i32 10))
                                                    (.skip))
                                                  (.seq (.expr (.asg (.loc "f_ctrl") (.load (.elem (.load (.loc "buf")) (.post .add (.loc "offset"))))))
                                                    (.seq (.expr (.asg (.loc "f_opts_len") (.bin .and (.load (.loc "f_ctrl")) (.lit .i32 15))))
                                                      (.seq (.ite (.bin .lt (.load (.fld (.elem (.load (.loc "pkt")) (.lit .i32 0)) ".size")) (.bin .add (.load (.loc "msg_min_size")) (.load (.loc "f_opts_len"))))
                                                          (.retVal (.lit .i32 7))
                                                          (.skip))
                                                        (.seq (.expr (.asg (.loc "f_cnt") (.load (.elem (.load (.loc "buf")) (.post .add (.loc "offset"))))))
                                                          (.seq (.expr (.asgOp .or (.loc "f_cnt") (.bin .shl (.load (.elem (.load (.loc "buf")) (.post .add (.loc "offset")))) (.lit .i32 8))))
                                                            (.seq (.ite (.bin .eq (.load (.glob "uw_session.f_cnt_down")) (.lit .i32 0))
                                                                (.expr (.asg (.glob "uw_session.f_cnt_down") (.load (.loc "f_cnt"))))
                                                                (.seq (.decl "f_cnt_prev" ([.uninit (some .u16)]))
                                                                  (.seq (.expr (.asg (.loc "f_cnt_prev") (.cast .u16 (.load (.glob "uw_session.f_cnt_down")))))
                                                                    (.seq (.decl "f_cnt_diff" ([.uninit (some .u16)]))
                                                                      (.seq (.expr (.asg (.loc "f_cnt_diff") (.bin .sub (.load (.loc "f_cnt")) (.load (.loc "f_cnt_prev")))))
                                                                        (.seq (.ite (.bin .eq (.load (.loc "f_cnt_diff")) (.lit .i32 0))
                                                                            (.retVal (.lit .i32 11))
                                                                            (.skip))
                                                                          (.ite (.bin .le (.load (.loc "f_cnt_diff")) (.lit .i32 16384))
                                                                            (.expr (.asgOp .add (.glob "uw_session.f_cnt_down") (.load (.loc "f_cnt_diff"))))
                                                                            (.seq (.decl "f_cnt_hi" ([.uninit (some .u32)]))
                                                                              (.seq (.expr (.asg (.loc "f_cnt_hi") (.bin .and (.load (.glob "uw_session.f_cnt_down")) (.lit .u32 4294901760))))
                                                                                (.expr (.asg (.glob "uw_session.f_cnt_down") (.bin .add (.bin .add (.load (.loc "f_cnt_hi")) (.lit .i32 65536)) (.load (.loc "f_cnt"))))))))))))))
                                                              (.seq (.expr (.asg (.glob "current_snr") (.load (.fld (.elem (.load (.loc "pkt")) (.lit .i32 0)) ".snr"))))
                                                                (.seq (.ite (.bin .gt (.load (.loc "f_opts_len")) (.lit .i32 0))
                                                                    (.expr (.call (.fn "mac_handle_commands") (.cons (.bin .add (.load (.loc "buf")) (.load (.loc "offset"))) (.cons (.load (.loc "f_opts_len")) (.nil)))))
                                                                    (.skip))
                                                                  (.seq (.expr (.asgOp .add (.loc "offset") (.load (.loc "f_opts_len"))))
                                                                    (.seq (.decl "pld" ([.uninit none]))
                                                                      (.seq (.expr (.asg (.loc "pld") (.null)))
                                                                        (.seq (.decl "pld_size" ([.uninit (some .u8)]))
                                                                          (.seq (.expr (.asg (.loc "pld_size") (.bin .sub (.load (.fld (.elem (.load (.loc "pkt")) (.lit .i32 0)) ".size")) (.bin .add (.load (.loc "msg_min_size")) (.load (.loc "f_opts_len"))))))
                                                                            (.seq (.ite (.bin .gt (.load (.loc "pld_size")) (.lit .i32 0))
                                                                                (.seq (.expr (.asg (.fld (.elem (.load (.loc "pkt")) (.lit .i32 0)) ".f_port") (.load (.elem (.load (.loc "buf")) (.post .add (.loc "offset"))))))
                                                                                  (.seq (.expr (.asg (.loc "pld") (.bin .add (.load (.loc "buf")) (.load (.loc "offset")))))
                                                                                    (.expr (.post .sub (.loc "pld_size")))))
                                                                                (.skip))
                                                                              (.seq (.expr (.call (.fn "calc_mic") (.cons (.addr (.loc "mic")) (.cons (.load (.loc "buf")) (.cons (.bin .sub (.load (.fld (.elem (.load (.loc "pkt")) (.lit .i32 0)) ".size")) (.lit .u32 4)) (.cons (.addr (.glob "uw_session.nwk_s_key")) (.cons (.lit .i32 1) (.cons (.lit .i32 1) (.nil)))))))))
                                                                                (.seq (.ite (.call (.fn "memcmp") (.cons (.bin .sub (.bin .add (.load (.loc "buf")) (.load (.fld (.elem (.load (.loc "pkt")) (.lit .i32 0)) ".size"))) (.lit .u32 4)) (.cons (.addr (.loc "mic")) (.cons (.lit .u32 4) (.nil)))))
                                                                                    (.retVal (.lit .i32 9))
                                                                                    (.skip))
                                                                                  (.seq (.ite (.bin .gt (.load (.loc "pld_size")) (.lit .i32 0))
                                                                                      (.seq (.decl "key" ([.uninit none]))
                                                                                        (.seq (.expr (.asg (.loc "key") (.cond (.bin .eq (.load (.fld (.elem (.load (.loc "pkt")) (.lit .i32 0)) ".f_port")) (.lit .i32 0)) (.addr (.glob "uw_session.nwk_s_key")) (.addr (.glob "uw_session.app_s_key")))))
                                                                                          (.expr (.call (.fn "encrypt_payload") (.cons (.load (.loc "pld")) (.cons (.load (.loc "pld_size")) (.cons (.load (.loc "key")) (.cons (.lit .i32 1) (.nil)))))))))
                                                                                      (.skip))
                                                                                    (.seq (.expr (.call (.fn "adr_handle_downlink") (.nil)))
                                                                                      (.seq (.expr (.asg (.fld (.elem (.load (.loc "pkt")) (.lit .i32 0)) ".data") (.load (.loc "pld"))))
                                                                                        (.seq (.expr (.asg (.fld (.elem (.load (.loc "pkt")) (.lit .i32 0)) ".size") (.load (.loc "pld_size"))))
                                                                                          (.retVal (.lit .i32 0)))))))))))))))))))))))))))))))))))))))))))))

/-- src/stack.c:417-440 -/
def handle_downlink : Fun where
  params := [("err", some .u32)]
  result := none
  body :=
    .seq (.decl "pkt.data" ([.null]))
    (.seq (.decl "pkt.size" ([.int .u8 0]))
      (.seq (.decl "pkt.f_port" ([.int .u8 0]))
        (.seq (.decl "pkt.rssi" ([.int .i16 0]))
          (.seq (.decl "pkt.snr" ([.int .i8 0]))
            (.seq (.decl "mtype" ([.uninit (some .u32)]))
              (.seq (.expr (.asg (.loc "mtype") (.lit .i32 0)))
                (.seq (.ite (.bin .eq (.load (.loc "err")) (.lit .i32 0))
                    (.seq (.expr (.asg (.loc "pkt.data") (.addr (.glob "uw_frame"))))
                      (.seq (.expr (.asg (.loc "pkt.size") (.lit .u32 255)))
                        (.expr (.call (.load (.fld (.elem (.load (.glob "uw_radio")) (.lit .i32 0)) ".read_packet")) (.cons (.addr (.loc "pkt")) (.nil))))))
                    (.skip))
                  (.seq (.expr (.call (.load (.fld (.elem (.load (.glob "uw_radio")) (.lit .i32 0)) ".sleep")) (.nil)))
                    (.seq (.ite (.bin .eq (.load (.loc "err")) (.lit .i32 0))
                        (.seq (.expr (.asg (.loc "mtype") (.cast .u32 (.bin .and (.bin .shr (.load (.elem (.addr (.glob "uw_frame")) (.lit .i32 0))) (.lit .i32 5)) (.lit .i32 7)))))
                          (.ite (.load (.glob "uw_is_join_state"))
                            (.expr (.asg (.loc "err") (.call (.fn "handle_join_msg") (.cons (.addr (.loc "pkt")) (.nil)))))
                            (.expr (.asg (.loc "err") (.call (.fn "handle_data_msg") (.cons (.addr (.loc "pkt")) (.nil)))))))
                        (.skip))
                      (.seq (.expr (.asg (.glob "uw_is_join_state") (.lit .i32 0)))
                        (.expr (.call (.load (.fld (.elem (.load (.glob "uw_stack_hal")) (.lit .i32 0)) ".downlink_callback")) (.cons (.load (.loc "err")) (.cons (.load (.loc "mtype")) (.cons (.addr (.loc "pkt")) (.nil))))))))))))))))

/-- src/stack.c:442-511 -/
def evt_handler : Fun where
  params := [("evt_mask", some .u8)]
  result := none
  body :=
    .seq (.ite (.bin .le (.load (.glob "uw_state")) (.lit .i32 1))
      (.ret)
      (.skip))
    (.block
      (.ite (.bin .eq (.load (.glob "uw_state")) (.lit .i32 2))
        (.seq (.ite (.bin .and (.load (.loc "evt_mask")) (.lit .i32 4))
            (.seq (.expr (.asg (.glob "uw_state") (.lit .i32 3)))
              (.seq (.expr (.call (.load (.fld (.elem (.load (.glob "uw_stack_hal")) (.lit .i32 0)) ".start_timer")) (.cons (.lit .i32 0) (.cons (.load (.glob "uw_rx1_delay")) (.nil)))))
                (.seq (.expr (.call (.load (.fld (.elem (.load (.glob "uw_stack_hal")) (.lit .i32 0)) ".start_timer")) (.cons (.lit .i32 1) (.cons (.load (.glob "uw_rx2_delay")) (.nil)))))
                  (.seq (.ite (.load (.glob "uw_rx1_offset"))
                      (.seq (.decl "dr_id" ([.uninit (some .u32)]))
                        (.seq (.expr (.asg (.loc "dr_id") (.call (.fn "get_current_dr") (.nil))))
                          (.seq (.ite (.bin .gt (.load (.glob "uw_rx1_offset")) (.load (.loc "dr_id")))
                              (.expr (.asg (.loc "dr_id") (.lit .i32 0)))
                              (.expr (.asgOp .sub (.loc "dr_id") (.load (.glob "uw_rx1_offset")))))
                            (.seq (.decl "dr" ([.uninit none]))
                              (.seq (.expr (.asg (.loc "dr") (.addr (.elem (.addr (.glob "uw_dr_table")) (.load (.loc "dr_id"))))))
                                (.seq (.expr (.asg (.glob "pkt_params.sf") (.load (.fld (.elem (.load (.loc "dr")) (.lit .i32 0)) ".sf"))))
                                  (.expr (.asg (.glob "pkt_params.bw") (.load (.fld (.elem (.load (.loc "dr")) (.lit .i32 0)) ".bw"))))))))))
                      (.skip))
                    (.seq (.expr (.asg (.glob "pkt_params.inverted_iq") (.lit .i32 1)))
                      (.seq (.expr (.call (.load (.fld (.elem (.load (.glob "uw_radio")) (.lit .i32 0)) ".setup")) (.cons (.addr (.glob "pkt_params")) (.nil))))
                        (.expr (.call (.fn "mac_on_tx_complete") (.nil)))))))))
            (.skip))
          (.brk))
        (.ite (.bin .eq (.load (.glob "uw_state")) (.lit .i32 3))
          (.seq (.ite (.bin .and (.load (.loc "evt_mask")) (.lit .i32 1))
              (.seq (.expr (.asg (.glob "uw_state") (.lit .i32 4)))
                (.seq (.decl "dr" ([.uninit none]))
                  (.seq (.expr (.asg (.loc "dr") (.addr (.elem (.addr (.glob "uw_dr_table")) (.load (.glob "uw_rx2_dr"))))))
                    (.seq (.expr (.asg (.glob "pkt_params.sf") (.load (.fld (.elem (.load (.loc "dr")) (.lit .i32 0)) ".sf"))))
                      (.seq (.expr (.asg (.glob "pkt_params.bw") (.load (.fld (.elem (.load (.loc "dr")) (.lit .i32 0)) ".bw"))))
                        (.seq (.expr (.asg (.glob "pkt_params.inverted_iq") (.lit .i32 1)))
                          (.seq (.expr (.call (.load (.fld (.elem (.load (.glob "uw_radio")) (.lit .i32 0)) ".set_frequency")) (.cons (.load (.glob "uw_rx2_frequency")) (.nil))))
                            (.expr (.call (.load (.fld (.elem (.load (.glob "uw_radio")) (.lit .i32 0)) ".setup")) (.cons (.addr (.glob "pkt_params")) (.nil)))))))))))
              (.ite (.bin .and (.load (.loc "evt_mask")) (.lit .i32 2))
                (.seq (.expr (.call (.load (.fld (.elem (.load (.glob "uw_stack_hal")) (.lit .i32 0)) ".stop_timer")) (.cons (.lit .i32 1) (.nil))))
                  (.seq (.expr (.asg (.glob "uw_state") (.lit .i32 1)))
                    (.ite (.bin .and (.load (.loc "evt_mask")) (.lit .i32 8))
                      (.expr (.call (.fn "handle_downlink") (.cons (.lit .i32 6) (.nil))))
                      (.expr (.call (.fn "handle_downlink") (.cons (.lit .i32 0) (.nil)))))))
                (.skip)))
            (.brk))
          (.ite (.bin .eq (.load (.glob "uw_state")) (.lit .i32 4))
            (.seq (.ite (.bin .and (.load (.loc "evt_mask")) (.lit .i32 1))
                (.seq (.expr (.asg (.glob "uw_state") (.lit .i32 1)))
                  (.expr (.call (.fn "handle_downlink") (.cons (.lit .i32 5) (.nil)))))
                (.ite (.bin .and (.load (.loc "evt_mask")) (.lit .i32 2))
                  (.seq (.expr (.asg (.glob "uw_state") (.lit .i32 1)))
                    (.ite (.bin .and (.load (.loc "evt_mask")) (.lit .i32 8))
                      (.expr (.call (.fn "handle_downlink") (.cons (.lit .i32 6) (.nil))))
                      (.expr (.call (.fn "handle_downlink") (.cons (.lit .i32 0) (.nil))))))
                  (.skip)))
              (.brk))
            (.brk)))))

/-- src/stack.c:513-534 -/
def uwan_init : Fun where
  params := [("radio", none), ("stack", none), ("region", none)]
  result := none
  body :=
    .seq (.expr (.asg (.glob "uw_state") (.lit .i32 1)))
    (.seq (.expr (.asg (.glob "uw_radio") (.load (.loc "radio"))))
      (.seq (.expr (.asg (.glob "uw_stack_hal") (.load (.loc "stack"))))
        (.seq (.expr (.asg (.glob "uw_region") (.load (.loc "region"))))
          (.seq (.zero [.glob "uw_session.is_joined", .glob "uw_session.ack_required", .glob "uw_session.dr", .glob "uw_session.dev_addr", .glob "uw_session.f_cnt_up", .glob "uw_session.f_cnt_down", .glob "uw_session.nwk_s_key", .glob "uw_session.app_s_key"])
            (.seq (.expr (.call (.load (.fld (.elem (.load (.loc "radio")) (.lit .i32 0)) ".set_evt_handler")) (.cons (.fn "evt_handler") (.nil))))
              (.seq (.expr (.call (.fn "mac_init") (.nil)))
                (.seq (.expr (.call (.fn "channels_init") (.nil)))
                  (.seq (.expr (.call (.load (.fld (.elem (.load (.glob "uw_region")) (.lit .i32 0)) ".init")) (.nil)))
                    (.seq (.expr (.call (.fn "utils_random_init") (.cons (.call (.load (.fld (.elem (.load (.loc "radio")) (.lit .i32 0)) ".rand")) (.nil)) (.nil))))
                      (.seq (.expr (.asg (.glob "pkt_params.cr") (.lit .i32 0)))
                        (.seq (.expr (.asg (.glob "pkt_params.preamble_len") (.lit .i32 8)))
                          (.seq (.expr (.asg (.glob "pkt_params.crc_on") (.lit .i32 1)))
                            (.expr (.asg (.glob "pkt_params.implicit_header") (.lit .i32 0)))))))))))))))

/-- src/stack.c:536-542 -/
def uwan_set_otaa_keys : Fun where
  params := [("dev_eui", none), ("app_eui", none), ("app_key", none)]
  result := none
  body :=
    .seq (.expr (.call (.fn "memcpy") (.cons (.addr (.glob "uw_dev_eui")) (.cons (.load (.loc "dev_eui")) (.cons (.lit .i32 8) (.nil))))))
    (.seq (.expr (.call (.fn "memcpy") (.cons (.addr (.glob "uw_app_eui")) (.cons (.load (.loc "app_eui")) (.cons (.lit .i32 8) (.nil))))))
      (.expr (.call (.fn "memcpy") (.cons (.addr (.glob "uw_app_key")) (.cons (.load (.loc "app_key")) (.cons (.lit .i32 16) (.nil)))))))

/-- src/stack.c:544-557 -/
def uwan_set_session : Fun where
  params := [("dev_addr", some .u32), ("f_cnt_up", some .u32), ("f_cnt_down", some .u32), ("nwk_s_key", none), ("app_s_key", none)]
  result := none
  body :=
    .seq (.expr (.asg (.glob "uw_session.dev_addr") (.load (.loc "dev_addr"))))
    (.seq (.expr (.asg (.glob "uw_session.f_cnt_up") (.load (.loc "f_cnt_up"))))
      (.seq (.expr (.asg (.glob "uw_session.f_cnt_down") (.load (.loc "f_cnt_down"))))
        (.seq (.expr (.asg (.glob "uw_session.ack_required") (.lit .i32 0)))
          (.seq (.expr (.asg (.glob "uw_session.dr") (.load (.glob "default_dr"))))
            (.seq (.expr (.call (.fn "memcpy") (.cons (.addr (.glob "uw_session.nwk_s_key")) (.cons (.load (.loc "nwk_s_key")) (.cons (.lit .i32 16) (.nil))))))
              (.seq (.expr (.call (.fn "memcpy") (.cons (.addr (.glob "uw_session.app_s_key")) (.cons (.load (.loc "app_s_key")) (.cons (.lit .i32 16) (.nil))))))
                (.expr (.asg (.glob "uw_session.is_joined") (.lit .i32 1)))))))))

/-- src/stack.c:559-562 -/
def uwan_is_joined : Fun where
  params := []
  result := some .bool
  body :=
    .retVal (.load (.glob "uw_session.is_joined"))

/-- src/stack.c:564-576 -/
def uwan_set_rx2 : Fun where
  params := [("frequency", some .u32), ("dr", some .u32)]
  result := some .u32
  body :=
    .seq (.ite (.not (.call (.fn "is_valid_dr") (.cons (.load (.loc "dr")) (.nil))))
      (.retVal (.lit .i32 2))
      (.skip))
    (.seq (.ite (.not (.call (.fn "is_valid_frequency") (.cons (.load (.loc "frequency")) (.nil))))
        (.retVal (.lit .i32 4))
        (.skip))
      (.seq (.expr (.asg (.glob "uw_rx2_frequency") (.load (.loc "frequency"))))
        (.seq (.expr (.asg (.glob "uw_rx2_dr") (.load (.loc "dr"))))
          (.retVal (.lit .i32 0)))))

/-- src/stack.c:578-621 -/
def uwan_join : Fun where
  params := []
  result := some .u32
  body :=
    .seq (.decl "offset" ([.uninit (some .u8)]))
    (.seq (.expr (.asg (.loc "offset") (.lit .i32 0)))
      (.seq (.ite (.bin .ne (.load (.glob "uw_state")) (.lit .i32 1))
          (.retVal (.lit .i32 1))
          (.skip))
        (.seq (.decl "frequency" ([.uninit (some .u32)]))
          (.seq (.expr (.asg (.loc "frequency") (.call (.fn "channels_get_next") (.nil))))
            (.seq (.ite (.not (.load (.loc "frequency")))
                (.retVal (.lit .i32 3))
                (.skip))
              (.seq (.decl "dr" ([.uninit none]))
                (.seq (.expr (.asg (.loc "dr") (.addr (.elem (.addr (.glob "uw_dr_table")) (.load (.glob "default_dr"))))))
                  (.seq (.expr (.asg (.glob "pkt_params.sf") (.load (.fld (.elem (.load (.loc "dr")) (.lit .i32 0)) ".sf"))))
                    (.seq (.expr (.asg (.glob "pkt_params.bw") (.load (.fld (.elem (.load (.loc "dr")) (.lit .i32 0)) ".bw"))))
                      (.seq (.expr (.asg (.glob "pkt_params.inverted_iq") (.lit .i32 0)))
                        (.seq (.expr (.call (.load (.fld (.elem (.load (.glob "uw_radio")) (.lit .i32 0)) ".set_frequency")) (.cons (.load (.loc "frequency")) (.nil))))
                          (.seq (.expr (.call (.load (.fld (.elem (.load (.glob "uw_radio")) (.lit .i32 0)) ".setup")) (.cons (.addr (.glob "pkt_params")) (.nil))))
                            (.seq (.expr (.call (.fn "apply_tx_power") (.nil)))
                              (.seq (.expr (.asg (.glob "uw_session.is_joined") (.lit .i32 0)))
                                (.seq (.expr (.asg (.glob "uw_is_join_state") (.lit .i32 1)))
                                  (.seq (.expr (.asg (.elem (.addr (.glob "uw_frame")) (.post .add (.loc "offset"))) (.bin .or (.bin .shl (.lit .i32 0) (.lit .i32 5)) (.lit .i32 0))))
                                    (.seq (.expr (.call (.fn "memcpy") (.cons (.addr (.elem (.addr (.glob "uw_frame")) (.load (.loc "offset")))) (.cons (.addr (.glob "uw_app_eui")) (.cons (.lit .i32 8) (.nil))))))
                                      (.seq (.expr (.asgOp .add (.loc "offset") (.lit .i32 8)))
                                        (.seq (.decl "i" ([.uninit (some .u8)]))
                                          (.seq (.expr (.asg (.loc "i") (.lit .i32 8)))
                                            (.seq (.loop (.bin .gt (.load (.loc "i")) (.lit .i32 0)) (.expr (.post .sub (.loc "i")))
                                                (.expr (.asg (.elem (.addr (.glob "uw_frame")) (.post .add (.loc "offset"))) (.load (.elem (.addr (.glob "uw_dev_eui")) (.bin .sub (.load (.loc "i")) (.lit .i32 1)))))))
                                              (.seq (.expr (.asg (.glob "uw_dev_nonce") (.call (.fn "utils_get_random") (.cons (.lit .i32 65536) (.nil)))))
                                                (.seq (.expr (.asg (.elem (.addr (.glob "uw_frame")) (.post .add (.loc "offset"))) (.bin .and (.load (.glob "uw_dev_nonce")) (.lit .i32 255))))
                                                  (.seq (.expr (.asg (.elem (.addr (.glob "uw_frame")) (.post .add (.loc "offset"))) (.bin .and (.bin .shr (.load (.glob "uw_dev_nonce")) (.lit .i32 8)) (.lit .i32 255))))
                                                    (.seq (.expr (.call (.fn "calc_mic") (.cons (.addr (.elem (.addr (.glob "uw_frame")) (.load (.loc "offset")))) (.cons (.addr (.glob "uw_frame")) (.cons (.load (.loc "offset")) (.cons (.addr (.glob "uw_app_key")) (.cons (.lit .i32 0) (.cons (.lit .i32 0) (.nil)))))))))
                                                      (.seq (.expr (.asgOp .add (.loc "offset") (.lit .i32 4)))
                                                        (.seq (.expr (.asg (.glob "uw_rx1_delay") (.load (.glob "default_join_delay"))))
                                                          (.seq (.expr (.asg (.glob "uw_rx2_delay") (.bin .add (.load (.glob "default_join_delay")) (.lit .i32 1000))))
                                                            (.seq (.expr (.asg (.glob "uw_state") (.lit .i32 2)))
                                                              (.seq (.expr (.call (.load (.fld (.elem (.load (.glob "uw_radio")) (.lit .i32 0)) ".tx")) (.cons (.addr (.glob "uw_frame")) (.cons (.load (.loc "offset")) (.nil)))))
                                                                (.retVal (.lit .i32 0))))))))))))))))))))))))))))))))

/-- src/stack.c:623-637 -/
def uwan_get_max_payload_size : Fun where
  params := []
  result := some .u8
  body :=
    .seq (.decl "max_pld_size" ([.uninit (some .u8)]))
    (.seq (.expr (.asg (.loc "max_pld_size") (.lit .i32 0)))
      (.seq (.decl "dr" ([.uninit (some .u32)]))
        (.seq (.expr (.asg (.loc "dr") (.call (.fn "get_current_dr") (.nil))))
          (.seq (.ite (.bin .lt (.load (.loc "dr")) (.bin .div (.lit .u32 6) (.lit .u32 1)))
              (.expr (.asg (.loc "max_pld_size") (.load (.elem (.addr (.glob "uw_max_app_pld_size")) (.load (.loc "dr"))))))
              (.skip))
            (.seq (.ite (.bin .ge (.load (.loc "max_pld_size")) (.call (.fn "mac_get_payload_size") (.nil)))
                (.expr (.asgOp .sub (.loc "max_pld_size") (.call (.fn "mac_get_payload_size") (.nil))))
                (.expr (.asg (.loc "max_pld_size") (.lit .i32 0))))
              (.retVal (.load (.loc "max_pld_size"))))))))

/-- src/stack.c:639-716 -/
def uwan_send_frame : Fun where
  params := [("f_port", some .u8), ("payload", none), ("pld_len", some .u8), ("confirm", some .bool)]
  result := some .u32
  body :=
    .seq (.decl "offset" ([.uninit (some .u8)]))
    (.seq (.expr (.asg (.loc "offset") (.lit .i32 0)))
      (.seq (.ite (.bin .ne (.load (.glob "uw_state")) (.lit .i32 1))
          (.retVal (.lit .i32 1))
          (.skip))
        (.seq (.decl "frequency" ([.uninit (some .u32)]))
          (.seq (.expr (.asg (.loc "frequency") (.call (.fn "channels_get_next") (.nil))))
            (.seq (.ite (.not (.load (.loc "frequency")))
                (.retVal (.lit .i32 3))
                (.skip))
              (.seq (.ite (.bin .gt (.load (.loc "pld_len")) (.call (.fn "uwan_get_max_payload_size") (.nil)))
                  (.retVal (.lit .i32 7))
                  (.skip))
                (.seq (.decl "mac_pld_size" ([.uninit (some .u8)]))
                  (.seq (.expr (.asg (.loc "mac_pld_size") (.call (.fn "mac_get_payload_size") (.nil))))
                    (.seq (.ite (.and (.not (.load (.loc "pld_len"))) (.not (.load (.loc "mac_pld_size"))))
                        (.retVal (.lit .i32 7))
                        (.skip))
                      (.seq (.decl "dr" ([.uninit none]))
                        (.seq (.expr (.asg (.loc "dr") (.addr (.elem (.addr (.glob "uw_dr_table")) (.call (.fn "get_current_dr") (.nil))))))
                          (.seq (.expr (.asg (.glob "pkt_params.sf") (.load (.fld (.elem (.load (.loc "dr")) (.lit .i32 0)) ".sf"))))
                            (.seq (.expr (.asg (.glob "pkt_params.bw") (.load (.fld (.elem (.load (.loc "dr")) (.lit .i32 0)) ".bw"))))
                              (.seq (.expr (.asg (.glob "pkt_params.inverted_iq") (.lit .i32 0)))
                                (.seq (.expr (.call (.load (.fld (.elem (.load (.glob "uw_radio")) (.lit .i32 0)) ".set_frequency")) (.cons (.load (.loc "frequency")) (.nil))))
                                  (.seq (.expr (.call (.load (.fld (.elem (.load (.glob "uw_radio")) (.lit .i32 0)) ".setup")) (.cons (.addr (.glob "pkt_params")) (.nil))))
                                    (.seq (.expr (.call (.fn "apply_tx_power") (.nil)))
                                      (.seq (.decl "mtype" ([.uninit (some .u8)]))
                                        (.seq (.ite (.load (.loc "confirm"))
                                            (.expr (.asg (.loc "mtype") (.lit .i32 4)))
                                            (.expr (.asg (.loc "mtype") (.lit .i32 2))))
                                          (.seq (.expr (.asg (.elem (.addr (.glob "uw_frame")) (.post .add (.loc "offset"))) (.bin .or (.bin .shl (.load (.loc "mtype")) (.lit .i32 5)) (.lit .i32 0))))
                                            (.seq (.expr (.asg (.elem (.addr (.glob "uw_frame")) (.post .add (.loc "offset"))) (.bin .and (.load (.glob "uw_session.dev_addr")) (.lit .i32 255))))
                                              (.seq (.expr (.asg (.elem (.addr (.glob "uw_frame")) (.post .add (.loc "offset"))) (.bin .and (.bin .shr (.load (.glob "uw_session.dev_addr")) (.lit .i32 8)) (.lit .i32 255))))
                                                (.seq (.expr (.asg (.elem (.addr (.glob "uw_frame")) (.post .add (.loc "offset"))) (.bin .and (.bin .shr (.load (.glob "uw_session.dev_addr")) (.lit .i32 16)) (.lit .i32 255))))
                                                  (.seq (.expr (.asg (.elem (.addr (.glob "uw_frame")) (.post .add (.loc "offset"))) (.bin .and (.bin .shr (.load (.glob "uw_session.dev_addr")) (.lit .i32 24)) (.lit .i32 255))))
                                                    (.seq (.decl "f_ctrl" ([.uninit (some .u8)]))
                                                      (.seq (.expr (.asg (.loc "f_ctrl") (.lit .i32 0)))
                                                        (.seq (.ite (.call (.fn "uwan_adr_is_enabled") (.nil))
                                                            (.expr (.asgOp .or (.loc "f_ctrl") (.lit .i32 128)))
                                                            (.skip))
                                                          (.seq (.ite (.call (.fn "adr_get_req_bit") (.nil))
                                                              (.expr (.asgOp .or (.loc "f_ctrl") (.lit .i32 64)))
                                                              (.skip))
                                                            (.seq (.ite (.load (.glob "uw_session.ack_required"))
                                                                (.seq (.expr (.asg (.glob "uw_session.ack_required") (.lit .i32 0)))
                                                                  (.expr (.asgOp .or (.loc "f_ctrl") (.lit .i32 32))))
                                                                (.skip))
                                                              (.seq (.expr (.asgOp .or (.loc "f_ctrl") (.bin .and (.call (.fn "mac_get_payload_size") (.nil)) (.lit .i32 15))))
                                                                (.seq (.expr (.asg (.elem (.addr (.glob "uw_frame")) (.post .add (.loc "offset"))) (.load (.loc "f_ctrl"))))
                                                                  (.seq (.expr (.asg (.elem (.addr (.glob "uw_frame")) (.post .add (.loc "offset"))) (.bin .and (.load (.glob "uw_session.f_cnt_up")) (.lit .i32 255))))
                                                                    (.seq (.expr (.asg (.elem (.addr (.glob "uw_frame")) (.post .add (.loc "offset"))) (.bin .and (.bin .shr (.load (.glob "uw_session.f_cnt_up")) (.lit .i32 8)) (.lit .i32 255))))
                                                                      (.seq (.expr (.asgOp .add (.loc "offset") (.call (.fn "mac_get_payload") (.cons (.bin .add (.addr (.glob "uw_frame")) (.load (.loc "offset"))) (.cons (.lit .i32 15) (.nil))))))
                                                                        (.seq (.ite (.load (.loc "pld_len"))
                                                                            (.seq (.expr (.asg (.elem (.addr (.glob "uw_frame")) (.post .add (.loc "offset"))) (.load (.loc "f_port"))))
                                                                              (.seq (.expr (.call (.fn "memcpy") (.cons (.addr (.elem (.addr (.glob "uw_frame")) (.load (.loc "offset")))) (.cons (.load (.loc "payload")) (.cons (.load (.loc "pld_len")) (.nil))))))
                                                                                (.seq (.expr (.call (.fn "encrypt_payload") (.cons (.addr (.elem (.addr (.glob "uw_frame")) (.load (.loc "offset")))) (.cons (.load (.loc "pld_len")) (.cons (.addr (.glob "uw_session.app_s_key")) (.cons (.lit .i32 0) (.nil)))))))
                                                                                  (.expr (.asgOp .add (.loc "offset") (.load (.loc "pld_len")))))))
                                                                            (.skip))
                                                                          (.seq (.expr (.call (.fn "calc_mic") (.cons (.addr (.elem (.addr (.glob "uw_frame")) (.load (.loc "offset")))) (.cons (.addr (.glob "uw_frame")) (.cons (.load (.loc "offset")) (.cons (.addr (.glob "uw_session.nwk_s_key")) (.cons (.lit .i32 0) (.cons (.lit .i32 1) (.nil)))))))))
                                                                            (.seq (.expr (.asgOp .add (.loc "offset") (.lit .i32 4)))
                                                                              (.seq (.expr (.post .add (.glob "uw_session.f_cnt_up")))
                                                                                (.seq (.expr (.asg (.glob "uw_rx1_delay") (.load (.glob "default_rx1_delay"))))
                                                                                  (.seq (.expr (.asg (.glob "uw_rx2_delay") (.bin .add (.load (.glob "default_rx1_delay")) (.lit .i32 1000))))
                                                                                    (.seq (.expr (.asg (.glob "uw_state") (.lit .i32 2)))
                                                                                      (.seq (.expr (.call (.load (.fld (.elem (.load (.glob "uw_radio")) (.lit .i32 0)) ".tx")) (.cons (.addr (.glob "uw_frame")) (.cons (.load (.loc "offset")) (.nil)))))
                                                                                        (.seq (.expr (.call (.fn "adr_handle_uplink") (.nil)))
                                                                                          (.retVal (.lit .i32 0)))))))))))))))))))))))))))))))))))))))))))))

/-- src/stack.c:718-726 -/
def uwan_timer_callback : Fun where
  params := [("timer_id", some .u32)]
  result := none
  body :=
    .ite (.and (.bin .eq (.load (.glob "uw_state")) (.lit .i32 3)) (.bin .eq (.load (.loc "timer_id")) (.lit .i32 0)))
    (.expr (.call (.load (.fld (.elem (.load (.glob "uw_radio")) (.lit .i32 0)) ".rx")) (.cons (.lit .i32 255) (.cons (.lit .i32 8) (.cons (.lit .i32 0) (.nil))))))
    (.ite (.and (.bin .eq (.load (.glob "uw_state")) (.lit .i32 4)) (.bin .eq (.load (.loc "timer_id")) (.lit .i32 1)))
      (.expr (.call (.load (.fld (.elem (.load (.glob "uw_radio")) (.lit .i32 0)) ".rx")) (.cons (.lit .i32 255) (.cons (.lit .i32 8) (.cons (.lit .i32 0) (.nil))))))
      (.skip))

/-- src/stack.c:728-732 -/
def uwan_set_dr : Fun where
  params := [("dr", some .u32)]
  result := none
  body :=
    .ite (.call (.fn "is_valid_dr") (.cons (.load (.loc "dr")) (.nil)))
    (.expr (.asg (.glob "default_dr") (.asg (.glob "uw_session.dr") (.load (.loc "dr")))))
    (.skip)

/-- src/stack.c:734-742 -/
def uwan_set_nb_trans : Fun where
  params := [("nb_trans", some .u8)]
  result := some .bool
  body :=
    .seq (.ite (.call (.fn "set_nb_trans") (.cons (.load (.loc "nb_trans")) (.nil)))
      (.seq (.expr (.asg (.glob "default_nb_trans") (.load (.loc "nb_trans"))))
        (.retVal (.lit .i32 1)))
      (.skip))
    (.retVal (.lit .i32 0))

/-- src/stack.c:744-747 -/
def uwan_set_max_eirp : Fun where
  params := [("max_eirp", some .i8)]
  result := none
  body :=
    .expr (.asg (.glob "default_max_eirp") (.load (.loc "max_eirp")))

/-- src/stack.c:749-757 -/
def uwan_set_tx_power : Fun where
  params := [("tx_power", some .u8)]
  result := some .bool
  body :=
    .seq (.ite (.call (.fn "set_tx_power") (.cons (.load (.loc "tx_power")) (.nil)))
      (.seq (.expr (.asg (.glob "default_tx_power") (.load (.loc "tx_power"))))
        (.retVal (.lit .i32 1)))
      (.skip))
    (.retVal (.lit .i32 0))

/-- src/stack.c:759-767 -/
def uwan_set_rx1_dr_offset : Fun where
  params := [("rx1_dr_offset", some .u8)]
  result := some .bool
  body :=
    .seq (.ite (.call (.fn "is_valid_dr") (.cons (.load (.loc "rx1_dr_offset")) (.nil)))
      (.seq (.expr (.asg (.glob "uw_rx1_offset") (.load (.loc "rx1_dr_offset"))))
        (.retVal (.lit .i32 1)))
      (.skip))
    (.retVal (.lit .i32 0))

/-- src/stack.c:769-777 -/
def uwan_set_rx1_delay : Fun where
  params := [("delay", some .u8)]
  result := some .bool
  body :=
    .seq (.ite (.and (.bin .ge (.load (.loc "delay")) (.lit .i32 1)) (.bin .le (.load (.loc "delay")) (.lit .i32 15)))
      (.seq (.expr (.asg (.glob "default_rx1_delay") (.bin .mul (.load (.loc "delay")) (.lit .i32 1000))))
        (.retVal (.lit .i32 1)))
      (.skip))
    (.retVal (.lit .i32 0))

/-- src/stack.c:779-782 -/
def is_valid_dr : Fun where
  params := [("dr", some .u8)]
  result := some .bool
  body :=
    .retVal (.bin .lt (.load (.loc "dr")) (.lit .i32 6))

/-- src/stack.c:784-787 -/
def is_valid_frequency : Fun where
  params := [("freq", some .u32)]
  result := some .bool
  body :=
    .retVal (.and (.bin .ge (.load (.loc "freq")) (.lit .i32 860000000)) (.bin .le (.load (.loc "freq")) (.lit .i32 870000000)))

/-- src/stack.c:789-797 -/
def set_nb_trans : Fun where
  params := [("nb_trans", some .u8)]
  result := some .bool
  body :=
    .seq (.ite (.and (.bin .ge (.load (.loc "nb_trans")) (.lit .i32 1)) (.bin .le (.load (.loc "nb_trans")) (.lit .i32 15)))
      (.seq (.expr (.asg (.glob "uw_nb_trans") (.load (.loc "nb_trans"))))
        (.retVal (.lit .i32 1)))
      (.skip))
    (.retVal (.lit .i32 0))

/-- src/stack.c:799-802 -/
def reset_nb_trans : Fun where
  params := []
  result := none
  body :=
    .expr (.asg (.glob "uw_nb_trans") (.load (.glob "default_nb_trans")))

/-- src/stack.c:804-808 -/
def is_valid_tx_power : Fun where
  params := [("tx_power", some .u8)]
  result := some .bool
  body :=
    .seq (.decl "count" ([.uninit (some .u8)]))
    (.seq (.expr (.asg (.loc "count") (.bin .div (.lit .u32 8) (.lit .u32 1))))
      (.retVal (.bin .lt (.load (.loc "tx_power")) (.load (.loc "count")))))

/-- src/stack.c:810-818 -/
def set_tx_power : Fun where
  params := [("tx_power", some .u8)]
  result := some .bool
  body :=
    .seq (.ite (.call (.fn "is_valid_tx_power") (.cons (.load (.loc "tx_power")) (.nil)))
      (.seq (.expr (.asg (.glob "uw_tx_power") (.load (.loc "tx_power"))))
        (.retVal (.lit .i32 1)))
      (.skip))
    (.retVal (.lit .i32 0))

/-- src/stack.c:820-823 -/
def get_snr : Fun where
  params := []
  result := some .i8
  body :=
    .retVal (.load (.glob "current_snr"))

/-- The functions of src/stack.c. -/
def stackFuns : Program := [
  ("apply_tx_power", apply_tx_power),
  ("get_current_dr", get_current_dr),
  ("encrypt_payload", encrypt_payload),
  ("calc_mic", calc_mic),
  ("derive_session_key", derive_session_key),
  ("handle_join_msg", handle_join_msg),
  ("handle_data_msg", handle_data_msg),
  ("handle_downlink", handle_downlink),
  ("evt_handler", evt_handler),
  ("uwan_init", uwan_init),
  ("uwan_set_otaa_keys", uwan_set_otaa_keys),
  ("uwan_set_session", uwan_set_session),
  ("uwan_is_joined", uwan_is_joined),
  ("uwan_set_rx2", uwan_set_rx2),
  ("uwan_join", uwan_join),
  ("uwan_get_max_payload_size", uwan_get_max_payload_size),
  ("uwan_send_frame", uwan_send_frame),
  ("uwan_timer_callback", uwan_timer_callback),
  ("uwan_set_dr", uwan_set_dr),
  ("uwan_set_nb_trans", uwan_set_nb_trans),
  ("uwan_set_max_eirp", uwan_set_max_eirp),
  ("uwan_set_tx_power", uwan_set_tx_power),
  ("uwan_set_rx1_dr_offset", uwan_set_rx1_dr_offset),
  ("uwan_set_rx1_delay", uwan_set_rx1_delay),
  ("is_valid_dr", is_valid_dr),
  ("is_valid_frequency", is_valid_frequency),
  ("set_nb_trans", set_nb_trans),
  ("reset_nb_trans", reset_nb_trans),
  ("is_valid_tx_power", is_valid_tx_power),
  ("set_tx_power", set_tx_power),
  ("get_snr", get_snr)]

end Uwan.C.Src
