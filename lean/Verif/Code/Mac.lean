import Verif.Code.Sem

/-! Printed by `tools/c2lean.py` from `src/mac.c`; do not edit. -/

namespace Uwan.C.Src

/-- The variables of src/mac.c, as they start. -/
def macVars : Objs := [
  ("mac_buf", List.replicate 15 (.int .u8 0)),
  ("mac_buf_pos", [.int .u8 0]),
  ("mac_save_dev_time", [.int .bool 0]),
  ("mac_dev_time", [.int .u32 0]),
  ("mac_cbs", [.null]),
  ("mac_commands.handler", [.fn "link_check", .fn "link_adr", .fn "duty_cycle", .fn "rx_param_setup", .fn "dev_status", .fn "new_channel", .fn "rx_timing_setup", .fn "tx_param_setup", .fn "di_channel", .fn "device_time"]),
  ("mac_commands.cid", [.int .u8 2, .int .u8 3, .int .u8 4, .int .u8 5, .int .u8 6, .int .u8 7, .int .u8 8, .int .u8 9, .int .u8 10, .int .u8 13]),
  ("mac_commands.pld_size", [.int .u8 2, .int .u8 4, .int .u8 1, .int .u8 4, .int .u8 0, .int .u8 5, .int .u8 1, .int .u8 1, .int .u8 4, .int .u8 5])]

/-- src/mac.c:89-98 -/
def link_check : Fun where
  params := [("pld", none)]
  result := some .bool
  body :=
    .seq (.ite (.and (.load (.glob "mac_cbs")) (.load (.fld (.elem (.load (.glob "mac_cbs")) (.lit .i32 0)) ".link_check_result")))
      (.seq (.decl "margin" ([.uninit (some .u8)]))
        (.seq (.expr (.asg (.loc "margin") (.load (.elem (.load (.loc "pld")) (.lit .i32 0)))))
          (.seq (.decl "gw_cnt" ([.uninit (some .u8)]))
            (.seq (.expr (.asg (.loc "gw_cnt") (.load (.elem (.load (.loc "pld")) (.lit .i32 1)))))
              (.expr (.call (.load (.fld (.elem (.load (.glob "mac_cbs")) (.lit .i32 0)) ".link_check_result")) (.cons (.load (.loc "margin")) (.cons (.load (.loc "gw_cnt")) (.nil)))))))))
      (.skip))
    (.retVal (.lit .i32 1))

/-- src/mac.c:100-103 -/
def link_adr : Fun where
  params := [("pld", none)]
  result := some .bool
  body :=
    .retVal (.call (.fn "adr_handle_link_req") (.cons (.load (.elem (.load (.loc "pld")) (.lit .i32 0))) (.cons (.bin .or (.load (.elem (.load (.loc "pld")) (.lit .i32 1))) (.bin .shl (.load (.elem (.load (.loc "pld")) (.lit .i32 2))) (.lit .i32 8))) (.cons (.load (.elem (.load (.loc "pld")) (.lit .i32 3))) (.nil)))))

/-- src/mac.c:105-109 -/
def duty_cycle : Fun where
  params := [("pld", none)]
  result := some .bool
  body :=
    .retVal (.call (.fn "mac_enqueue") (.cons (.lit .i32 4) (.cons (.null) (.cons (.lit .i32 0) (.nil)))))

/-- src/mac.c:111-136 -/
def rx_param_setup : Fun where
  params := [("pld", none)]
  result := some .bool
  body :=
    .seq (.decl "dl_settings" ([.uninit (some .u8)]))
    (.seq (.expr (.asg (.loc "dl_settings") (.load (.elem (.load (.loc "pld")) (.lit .i32 0)))))
      (.seq (.decl "rx1_dr_offset" ([.uninit (some .u8)]))
        (.seq (.expr (.asg (.loc "rx1_dr_offset") (.bin .and (.bin .shr (.load (.loc "dl_settings")) (.lit .i32 4)) (.lit .i32 7))))
          (.seq (.decl "rx2_dr" ([.uninit (some .u8)]))
            (.seq (.expr (.asg (.loc "rx2_dr") (.bin .and (.load (.loc "dl_settings")) (.lit .i32 15))))
              (.seq (.decl "rx2_freq" ([.uninit (some .u32)]))
                (.seq (.expr (.asg (.loc "rx2_freq") (.bin .mul (.bin .or (.bin .or (.load (.elem (.load (.loc "pld")) (.lit .i32 1))) (.bin .shl (.load (.elem (.load (.loc "pld")) (.lit .i32 2))) (.lit .i32 8))) (.bin .shl (.load (.elem (.load (.loc "pld")) (.lit .i32 3))) (.lit .i32 16))) (.lit .i32 100))))
                  (.seq (.decl "status" ([.uninit (some .u8)]))
                    (.seq (.expr (.asg (.loc "status") (.lit .i32 0)))
                      (.seq (.ite (.call (.fn "is_valid_dr") (.cons (.load (.loc "rx1_dr_offset")) (.nil)))
                          (.expr (.asgOp .or (.loc "status") (.bin .shl (.lit .i32 1) (.lit .i32 2))))
                          (.skip))
                        (.seq (.ite (.call (.fn "is_valid_dr") (.cons (.load (.loc "rx2_dr")) (.nil)))
                            (.expr (.asgOp .or (.loc "status") (.bin .shl (.lit .i32 1) (.lit .i32 1))))
                            (.skip))
                          (.seq (.ite (.call (.fn "is_valid_frequency") (.cons (.load (.loc "rx2_freq")) (.nil)))
                              (.expr (.asgOp .or (.loc "status") (.bin .shl (.lit .i32 1) (.lit .i32 0))))
                              (.skip))
                            (.seq (.ite (.bin .eq (.load (.loc "status")) (.lit .i32 7))
                                (.seq (.expr (.call (.fn "uwan_set_rx1_dr_offset") (.cons (.load (.loc "rx1_dr_offset")) (.nil))))
                                  (.expr (.call (.fn "uwan_set_rx2") (.cons (.load (.loc "rx2_freq")) (.cons (.cast .u32 (.load (.loc "rx2_dr"))) (.nil))))))
                                (.skip))
                              (.retVal (.call (.fn "mac_enqueue") (.cons (.lit .i32 5) (.cons (.addr (.loc "status")) (.cons (.lit .u32 1) (.nil)))))))))))))))))))

/-- src/mac.c:138-149 -/
def dev_status : Fun where
  params := [("pld", none)]
  result := some .bool
  body :=
    .seq (.decl "status" (List.replicate 2 (.uninit (some .u8))))
    (.seq (.expr (.asg (.elem (.addr (.loc "status")) (.lit .i32 0)) (.lit .i32 255)))
      (.seq (.expr (.asg (.elem (.addr (.loc "status")) (.lit .i32 1)) (.bin .and (.call (.fn "get_snr") (.nil)) (.lit .i32 63))))
        (.seq (.ite (.and (.load (.glob "mac_cbs")) (.load (.fld (.elem (.load (.glob "mac_cbs")) (.lit .i32 0)) ".get_battery_level")))
            (.expr (.asg (.elem (.addr (.loc "status")) (.lit .i32 0)) (.call (.load (.fld (.elem (.load (.glob "mac_cbs")) (.lit .i32 0)) ".get_battery_level")) (.nil))))
            (.skip))
          (.retVal (.call (.fn "mac_enqueue") (.cons (.lit .i32 6) (.cons (.addr (.loc "status")) (.cons (.lit .u32 2) (.nil)))))))))

/-- src/mac.c:151-170 -/
def new_channel : Fun where
  params := [("pld", none)]
  result := some .bool
  body :=
    .seq (.decl "ch_index" ([.uninit (some .u8)]))
    (.seq (.expr (.asg (.loc "ch_index") (.load (.elem (.load (.loc "pld")) (.lit .i32 0)))))
      (.seq (.decl "freq" ([.uninit (some .u32)]))
        (.seq (.expr (.asg (.loc "freq") (.bin .mul (.bin .or (.bin .or (.load (.elem (.load (.loc "pld")) (.lit .i32 1))) (.bin .shl (.load (.elem (.load (.loc "pld")) (.lit .i32 2))) (.lit .i32 8))) (.bin .shl (.load (.elem (.load (.loc "pld")) (.lit .i32 3))) (.lit .i32 16))) (.lit .i32 100))))
          (.seq (.decl "dr_range" ([.uninit (some .u8)]))
            (.seq (.expr (.asg (.loc "dr_range") (.load (.elem (.load (.loc "pld")) (.lit .i32 4)))))
              (.seq (.decl "status" ([.uninit (some .u8)]))
                (.seq (.expr (.asg (.loc "status") (.lit .i32 0)))
                  (.seq (.ite (.call (.fn "is_valid_frequency") (.cons (.load (.loc "freq")) (.nil)))
                      (.expr (.asgOp .or (.loc "status") (.bin .shl (.lit .i32 1) (.lit .i32 0))))
                      (.skip))
                    (.seq (.ite (.bin .eq (.load (.loc "dr_range")) (.lit .i32 80))
                        (.expr (.asgOp .or (.loc "status") (.bin .shl (.lit .i32 1) (.lit .i32 1))))
                        (.skip))
                      (.seq (.ite (.bin .eq (.load (.loc "status")) (.lit .i32 3))
                          (.ite (.bin .ne (.call (.fn "uwan_set_channel") (.cons (.load (.loc "ch_index")) (.cons (.load (.loc "freq")) (.nil)))) (.lit .i32 0))
                            (.expr (.asg (.loc "status") (.lit .i32 0)))
                            (.skip))
                          (.skip))
                        (.retVal (.call (.fn "mac_enqueue") (.cons (.lit .i32 7) (.cons (.addr (.loc "status")) (.cons (.lit .u32 1) (.nil))))))))))))))))

/-- src/mac.c:172-183 -/
def rx_timing_setup : Fun where
  params := [("pld", none)]
  result := some .bool
  body :=
    .seq (.decl "delay" ([.uninit (some .u8)]))
    (.seq (.expr (.asg (.loc "delay") (.bin .and (.load (.elem (.load (.loc "pld")) (.lit .i32 0))) (.lit .i32 15))))
      (.seq (.ite (.bin .eq (.load (.loc "delay")) (.lit .i32 0))
          (.expr (.asg (.loc "delay") (.lit .i32 1)))
          (.skip))
        (.seq (.expr (.call (.fn "uwan_set_rx1_delay") (.cons (.load (.loc "delay")) (.nil))))
          (.retVal (.call (.fn "mac_enqueue") (.cons (.lit .i32 8) (.cons (.null) (.cons (.lit .i32 0) (.nil)))))))))

/-- src/mac.c:185-196 -/
def device_time : Fun where
  params := [("pld", none)]
  result := some .bool
  body :=
    .seq (.ite (.and (.load (.glob "mac_cbs")) (.load (.fld (.elem (.load (.glob "mac_cbs")) (.lit .i32 0)) ".device_time_result")))
      (.seq (.decl "gps_seconds" ([.uninit (some .u32)]))
        (.seq (.expr (.asg (.loc "gps_seconds") (.bin .or (.bin .or (.bin .or (.load (.elem (.load (.loc "pld")) (.lit .i32 0))) (.bin .shl (.load (.elem (.load (.loc "pld")) (.lit .i32 1))) (.lit .i32 8))) (.bin .shl (.load (.elem (.load (.loc "pld")) (.lit .i32 2))) (.lit .i32 16))) (.bin .shl (.load (.elem (.load (.loc "pld")) (.lit .i32 3))) (.lit .i32 24)))))
          (.seq (.decl "unixtime" ([.uninit (some .u32)]))
            (.seq (.expr (.asg (.loc "unixtime") (.call (.fn "utils_gps_to_unix") (.cons (.load (.loc "gps_seconds")) (.nil)))))
              (.seq (.decl "fraq" ([.uninit (some .u8)]))
                (.seq (.expr (.asg (.loc "fraq") (.load (.elem (.load (.loc "pld")) (.lit .i32 4)))))
                  (.expr (.call (.load (.fld (.elem (.load (.glob "mac_cbs")) (.lit .i32 0)) ".device_time_result")) (.cons (.load (.glob "mac_dev_time")) (.cons (.load (.loc "unixtime")) (.cons (.load (.loc "fraq")) (.nil))))))))))))
      (.skip))
    (.retVal (.lit .i32 1))

/-- src/mac.c:198-201 -/
def tx_param_setup : Fun where
  params := [("pld", none)]
  result := some .bool
  body :=
    .retVal (.lit .i32 1)

/-- src/mac.c:203-206 -/
def di_channel : Fun where
  params := [("pld", none)]
  result := some .bool
  body :=
    .retVal (.lit .i32 1)

/-- src/mac.c:208-211 -/
def uwan_mac_set_handlers : Fun where
  params := [("cbs", none)]
  result := none
  body :=
    .expr (.asg (.glob "mac_cbs") (.load (.loc "cbs")))

/-- src/mac.c:213-216 -/
def uwan_mac_link_check_req : Fun where
  params := []
  result := some .bool
  body :=
    .retVal (.call (.fn "mac_enqueue") (.cons (.lit .i32 2) (.cons (.null) (.cons (.lit .i32 0) (.nil)))))

/-- src/mac.c:218-223 -/
def uwan_mac_device_time_req : Fun where
  params := []
  result := some .bool
  body :=
    .seq (.decl "result" ([.uninit (some .bool)]))
    (.seq (.expr (.asg (.loc "result") (.call (.fn "mac_enqueue") (.cons (.lit .i32 13) (.cons (.null) (.cons (.lit .i32 0) (.nil)))))))
      (.seq (.expr (.asg (.glob "mac_save_dev_time") (.load (.loc "result"))))
        (.retVal (.load (.loc "result")))))

/-- src/mac.c:225-229 -/
def mac_init : Fun where
  params := []
  result := none
  body :=
    .seq (.expr (.asg (.glob "mac_buf_pos") (.lit .i32 0)))
    (.expr (.asg (.glob "mac_save_dev_time") (.lit .i32 0)))

/-- src/mac.c:231-254 -/
def mac_handle_commands : Fun where
  params := [("buf", none), ("len", some .u8)]
  result := none
  body :=
    .seq (.decl "start" ([.uninit none]))
    (.seq (.expr (.asg (.loc "start") (.load (.loc "buf"))))
      (.seq (.decl "end" ([.uninit none]))
        (.seq (.expr (.asg (.loc "end") (.bin .add (.load (.loc "start")) (.load (.loc "len")))))
          (.seq (.decl "mac_cmds_count" ([.uninit (some .i32)]))
            (.seq (.expr (.asg (.loc "mac_cmds_count") (.bin .div (.lit .u32 80) (.lit .u32 8))))
              (.loop (.bin .lt (.load (.loc "start")) (.load (.loc "end"))) .skip
                (.seq (.decl "cid" ([.uninit (some .u8)]))
                  (.seq (.expr (.asg (.loc "cid") (.load (.elem (.post .add (.loc "start")) (.lit .i32 0)))))
                    (.seq (.decl "status" ([.uninit (some .bool)]))
                      (.seq (.expr (.asg (.loc "status") (.lit .i32 0)))
                        (.seq (.decl "i" ([.uninit (some .i32)]))
                          (.seq (.expr (.asg (.loc "i") (.lit .i32 0)))
                            (.seq (.loop (.bin .lt (.load (.loc "i")) (.load (.loc "mac_cmds_count"))) (.expr (.post .add (.loc "i")))
                                (.ite (.bin .eq (.load (.loc "cid")) (.load (.fld (.elem (.addr (.glob "mac_commands")) (.load (.loc "i"))) ".cid")))
                                  (.seq (.ite (.bin .ge (.bin .sub (.load (.loc "end")) (.load (.loc "start"))) (.load (.fld (.elem (.addr (.glob "mac_commands")) (.load (.loc "i"))) ".pld_size")))
                                      (.seq (.expr (.asg (.loc "status") (.call (.load (.fld (.elem (.addr (.glob "mac_commands")) (.load (.loc "i"))) ".handler")) (.cons (.load (.loc "start")) (.nil)))))
                                        (.expr (.asgOp .add (.loc "start") (.load (.fld (.elem (.addr (.glob "mac_commands")) (.load (.loc "i"))) ".pld_size")))))
                                      (.skip))
                                    (.brk))
                                  (.skip)))
                              (.ite (.bin .ne (.load (.loc "status")) (.lit .i32 1))
                                (.brk)
                                (.skip)))))))))))))))

/-- src/mac.c:256-270 -/
def mac_enqueue : Fun where
  params := [("cid", some .u8), ("data", none), ("size", some .u8)]
  result := some .bool
  body :=
    .seq (.decl "free" ([.uninit (some .u8)]))
    (.seq (.expr (.asg (.loc "free") (.bin .sub (.lit .u32 15) (.load (.glob "mac_buf_pos")))))
      (.seq (.ite (.bin .gt (.bin .add (.lit .u32 1) (.load (.loc "size"))) (.load (.loc "free")))
          (.retVal (.lit .i32 0))
          (.skip))
        (.seq (.expr (.asg (.elem (.addr (.glob "mac_buf")) (.post .add (.glob "mac_buf_pos"))) (.load (.loc "cid"))))
          (.seq (.ite (.load (.loc "size"))
              (.seq (.expr (.call (.fn "memcpy") (.cons (.bin .add (.addr (.glob "mac_buf")) (.load (.glob "mac_buf_pos"))) (.cons (.load (.loc "data")) (.cons (.load (.loc "size")) (.nil))))))
                (.expr (.asgOp .add (.glob "mac_buf_pos") (.load (.loc "size")))))
              (.skip))
            (.retVal (.lit .i32 1))))))

/-- src/mac.c:272-279 -/
def mac_on_tx_complete : Fun where
  params := []
  result := none
  body :=
    .ite (.load (.glob "mac_save_dev_time"))
    (.seq (.expr (.asg (.glob "mac_save_dev_time") (.lit .i32 0)))
      (.ite (.load (.fld (.elem (.load (.glob "mac_cbs")) (.lit .i32 0)) ".get_device_time"))
        (.expr (.asg (.glob "mac_dev_time") (.call (.load (.fld (.elem (.load (.glob "mac_cbs")) (.lit .i32 0)) ".get_device_time")) (.nil))))
        (.skip)))
    (.skip)

/-- src/mac.c:281-284 -/
def mac_get_payload_size : Fun where
  params := []
  result := some .u8
  body :=
    .retVal (.load (.glob "mac_buf_pos"))

/-- src/mac.c:286-297 -/
def mac_get_payload : Fun where
  params := [("buf", none), ("buf_size", some .u8)]
  result := some .u8
  body :=
    .seq (.decl "result" ([.uninit (some .u8)]))
    (.seq (.expr (.asg (.loc "result") (.lit .i32 0)))
      (.seq (.ite (.bin .ge (.load (.loc "buf_size")) (.load (.glob "mac_buf_pos")))
          (.seq (.expr (.call (.fn "memcpy") (.cons (.load (.loc "buf")) (.cons (.addr (.glob "mac_buf")) (.cons (.load (.glob "mac_buf_pos")) (.nil))))))
            (.seq (.expr (.asg (.loc "result") (.load (.glob "mac_buf_pos"))))
              (.expr (.asg (.glob "mac_buf_pos") (.lit .i32 0)))))
          (.skip))
        (.retVal (.load (.loc "result")))))

/-- The functions of src/mac.c. -/
def macFuns : Program := [
  ("link_check", link_check),
  ("link_adr", link_adr),
  ("duty_cycle", duty_cycle),
  ("rx_param_setup", rx_param_setup),
  ("dev_status", dev_status),
  ("new_channel", new_channel),
  ("rx_timing_setup", rx_timing_setup),
  ("device_time", device_time),
  ("tx_param_setup", tx_param_setup),
  ("di_channel", di_channel),
  ("uwan_mac_set_handlers", uwan_mac_set_handlers),
  ("uwan_mac_link_check_req", uwan_mac_link_check_req),
  ("uwan_mac_device_time_req", uwan_mac_device_time_req),
  ("mac_init", mac_init),
  ("mac_handle_commands", mac_handle_commands),
  ("mac_enqueue", mac_enqueue),
  ("mac_on_tx_complete", mac_on_tx_complete),
  ("mac_get_payload_size", mac_get_payload_size),
  ("mac_get_payload", mac_get_payload)]

end Uwan.C.Src
