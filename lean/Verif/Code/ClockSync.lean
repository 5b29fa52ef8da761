import Verif.Code.Sem

/-! Printed by `tools/c2lean.py` from `src/ext/clock_sync.c`; do not edit. -/

namespace Uwan.C.Src

/-- The variables of src/ext/clock_sync.c, as they start. -/
def clockSyncVars : Objs := [
  ("adr_enabled_prev", [.int .bool 0]),
  ("nb_trans_prev", [.int .i32 0]),
  ("app_time_req_pending", [.int .bool 0]),
  ("state_token_req", [.int .u8 0]),
  ("cs_callbacks", [.null]),
  ("ans_buf", List.replicate 32 (.int .u8 0)),
  ("ans_buf_data_size", [.int .u8 0]),
  ("force_resync_nb_of_rep", [.int .i32 1]),
  ("ans_pending", [.int .bool 0])]

/-- src/ext/clock_sync.c:60-91 -/
def periodicity_from_period_id : Fun where
  params := [("id", some .i32)]
  result := some .u32
  body :=
    .seq (.decl "mul" ([.uninit (some .i32)]))
    (.seq (.expr (.asg (.loc "mul") (.lit .i32 2)))
      (.seq (.ite (.bin .eq (.load (.loc "id")) (.lit .i32 0))
          (.expr (.asg (.loc "mul") (.lit .i32 1)))
          (.seq (.decl "i" ([.uninit (some .i32)]))
            (.seq (.expr (.asg (.loc "i") (.lit .i32 0)))
              (.loop (.bin .lt (.load (.loc "i")) (.bin .sub (.load (.loc "id")) (.lit .i32 1))) (.expr (.post .add (.loc "i")))
                (.expr (.asg (.loc "mul") (.bin .mul (.load (.loc "mul")) (.load (.loc "mul")))))))))
        (.retVal (.bin .mul (.lit .i32 128) (.load (.loc "mul"))))))

/-- src/ext/clock_sync.c:93-173 -/
def handle_answ : Fun where
  params := [("buf", none), ("size", some .u8)]
  result := none
  body :=
    .seq (.decl "offset" ([.uninit (some .u8)]))
    (.seq (.expr (.asg (.loc "offset") (.lit .i32 0)))
      (.seq (.decl "ans_buf_offset" ([.uninit (some .u8)]))
        (.seq (.expr (.asg (.loc "ans_buf_offset") (.lit .i32 0)))
          (.seq (.decl "exec_cmd_mask" ([.uninit (some .u8)]))
            (.seq (.expr (.asg (.loc "exec_cmd_mask") (.lit .i32 0)))
              (.seq (.decl "corr_value" ([.uninit (some .i32)]))
                (.seq (.decl "periodicity" ([.uninit (some .u8)]))
                  (.seq (.decl "token" ([.uninit (some .u8)]))
                    (.seq (.ite (.bin .eq (.load (.glob "cs_callbacks")) (.null))
                        (.ret)
                        (.skip))
                      (.seq (.loop (.bin .lt (.load (.loc "offset")) (.load (.loc "size"))) .skip
                          (.seq (.decl "cmd" ([.uninit (some .u8)]))
                            (.seq (.expr (.asg (.loc "cmd") (.load (.elem (.load (.loc "buf")) (.post .add (.loc "offset"))))))
                              (.seq (.decl "cmd_mask" ([.uninit (some .u8)]))
                                (.seq (.expr (.asg (.loc "cmd_mask") (.bin .shl (.lit .i32 1) (.load (.loc "cmd")))))
                                  (.seq (.ite (.bin .and (.load (.loc "exec_cmd_mask")) (.load (.loc "cmd_mask")))
                                      (.brk)
                                      (.skip))
                                    (.seq (.expr (.asgOp .or (.loc "exec_cmd_mask") (.bin .shl (.lit .i32 1) (.load (.loc "cmd")))))
                                      (.block
                                        (.ite (.bin .eq (.load (.loc "cmd")) (.lit .i32 0))
                                          (.seq (.expr (.asg (.elem (.addr (.glob "ans_buf")) (.post .add (.loc "ans_buf_offset"))) (.lit .i32 0)))
                                            (.seq (.expr (.asg (.elem (.addr (.glob "ans_buf")) (.post .add (.loc "ans_buf_offset"))) (.lit .i32 1)))
                                              (.seq (.expr (.asg (.elem (.addr (.glob "ans_buf")) (.post .add (.loc "ans_buf_offset"))) (.lit .i32 1)))
                                                (.brk))))
                                          (.ite (.bin .eq (.load (.loc "cmd")) (.lit .i32 1))
                                            (.seq (.ite (.bin .lt (.bin .sub (.load (.loc "size")) (.load (.loc "offset"))) (.lit .i32 5))
                                                (.brk)
                                                (.skip))
                                              (.seq (.expr (.asg (.loc "corr_value") (.load (.elem (.load (.loc "buf")) (.post .add (.loc "offset"))))))
                                                (.seq (.expr (.asgOp .or (.loc "corr_value") (.bin .shl (.load (.elem (.load (.loc "buf")) (.post .add (.loc "offset")))) (.lit .i32 8))))
                                                  (.seq (.expr (.asgOp .or (.loc "corr_value") (.bin .shl (.load (.elem (.load (.loc "buf")) (.post .add (.loc "offset")))) (.lit .i32 16))))
                                                    (.seq (.expr (.asgOp .or (.loc "corr_value") (.bin .shl (.load (.elem (.load (.loc "buf")) (.post .add (.loc "offset")))) (.lit .i32 24))))
                                                      (.seq (.expr (.asg (.loc "token") (.bin .and (.load (.elem (.load (.loc "buf")) (.post .add (.loc "offset")))) (.lit .i32 15))))
                                                        (.seq (.ite (.bin .eq (.load (.loc "token")) (.load (.glob "state_token_req")))
                                                            (.seq (.expr (.call (.load (.fld (.elem (.load (.glob "cs_callbacks")) (.lit .i32 0)) ".set_clock_correction")) (.cons (.load (.loc "corr_value")) (.nil))))
                                                              (.expr (.asg (.glob "state_token_req") (.bin .and (.bin .add (.load (.glob "state_token_req")) (.lit .i32 1)) (.lit .i32 15)))))
                                                            (.skip))
                                                          (.brk))))))))
                                            (.ite (.bin .eq (.load (.loc "cmd")) (.lit .i32 2))
                                              (.seq (.ite (.bin .lt (.bin .sub (.load (.loc "size")) (.load (.loc "offset"))) (.lit .i32 1))
                                                  (.brk)
                                                  (.skip))
                                                (.seq (.expr (.asg (.loc "periodicity") (.load (.elem (.load (.loc "buf")) (.post .add (.loc "offset"))))))
                                                  (.seq (.expr (.asg (.elem (.addr (.glob "ans_buf")) (.post .add (.loc "ans_buf_offset"))) (.lit .i32 2)))
                                                    (.seq (.ite (.bin .eq (.load (.fld (.elem (.load (.glob "cs_callbacks")) (.lit .i32 0)) ".handle_app_time_periodicity_req")) (.null))
                                                        (.expr (.asg (.elem (.addr (.glob "ans_buf")) (.post .add (.loc "ans_buf_offset"))) (.lit .i32 1)))
                                                        (.seq (.decl "seconds" ([.uninit (some .u32)]))
                                                          (.seq (.expr (.asg (.loc "seconds") (.call (.fn "periodicity_from_period_id") (.cons (.load (.loc "periodicity")) (.nil)))))
                                                            (.seq (.expr (.call (.load (.fld (.elem (.load (.glob "cs_callbacks")) (.lit .i32 0)) ".handle_app_time_periodicity_req")) (.cons (.load (.loc "seconds")) (.nil))))
                                                              (.expr (.asg (.elem (.addr (.glob "ans_buf")) (.post .add (.loc "ans_buf_offset"))) (.lit .i32 0)))))))
                                                      (.seq (.decl "cur_time" ([.uninit (some .u32)]))
                                                        (.seq (.expr (.asg (.loc "cur_time") (.call (.fn "utils_unix_to_gps") (.cons (.call (.load (.fld (.elem (.load (.glob "cs_callbacks")) (.lit .i32 0)) ".get_unixtime")) (.nil)) (.nil)))))
                                                          (.seq (.expr (.asg (.elem (.addr (.glob "ans_buf")) (.post .add (.loc "ans_buf_offset"))) (.load (.loc "cur_time"))))
                                                            (.seq (.expr (.asg (.elem (.addr (.glob "ans_buf")) (.post .add (.loc "ans_buf_offset"))) (.bin .shr (.load (.loc "cur_time")) (.lit .i32 8))))
                                                              (.seq (.expr (.asg (.elem (.addr (.glob "ans_buf")) (.post .add (.loc "ans_buf_offset"))) (.bin .shr (.load (.loc "cur_time")) (.lit .i32 16))))
                                                                (.seq (.expr (.asg (.elem (.addr (.glob "ans_buf")) (.post .add (.loc "ans_buf_offset"))) (.bin .shr (.load (.loc "cur_time")) (.lit .i32 24))))
                                                                  (.brk)))))))))))
                                              (.ite (.bin .eq (.load (.loc "cmd")) (.lit .i32 3))
                                                (.seq (.expr (.asg (.glob "force_resync_nb_of_rep") (.bin .and (.load (.elem (.load (.loc "buf")) (.post .add (.loc "offset")))) (.lit .i32 7))))
                                                  (.seq (.ite (.bin .ne (.load (.glob "force_resync_nb_of_rep")) (.lit .i32 0))
                                                      (.expr (.call (.load (.fld (.elem (.load (.glob "cs_callbacks")) (.lit .i32 0)) ".force_device_resync_req")) (.nil)))
                                                      (.skip))
                                                    (.brk)))
                                                (.brk)))))))))))))
                        (.seq (.expr (.asg (.glob "ans_buf_data_size") (.load (.loc "ans_buf_offset"))))
                          (.expr (.asg (.glob "ans_pending") (.bin .ne (.load (.loc "ans_buf_offset")) (.lit .i32 0)))))))))))))))

/-- src/ext/clock_sync.c:175-182 -/
def uwan_clock_sync_init : Fun where
  params := [("cbs", none)]
  result := none
  body :=
    .seq (.expr (.asg (.glob "cs_callbacks") (.load (.loc "cbs"))))
    (.seq (.expr (.asg (.glob "state_token_req") (.lit .i32 0)))
      (.seq (.expr (.asg (.glob "app_time_req_pending") (.lit .i32 0)))
        (.seq (.expr (.asg (.glob "ans_pending") (.lit .i32 0)))
          (.expr (.asg (.glob "ans_buf_data_size") (.lit .i32 0))))))

/-- src/ext/clock_sync.c:184-201 -/
def uwan_clock_sync_handle_time_answ : Fun where
  params := [("err", some .u32), ("m_type", some .u32), ("pkt", none)]
  result := none
  body :=
    .seq (.ite (.bin .ne (.load (.loc "err")) (.lit .i32 0))
      (.ret)
      (.skip))
    (.seq (.ite (.load (.glob "app_time_req_pending"))
        (.expr (.asg (.glob "app_time_req_pending") (.lit .i32 0)))
        (.skip))
      (.seq (.expr (.asg (.glob "ans_pending") (.lit .i32 0)))
        (.ite (.and (.load (.fld (.elem (.load (.loc "pkt")) (.lit .i32 0)) ".size")) (.bin .eq (.load (.fld (.elem (.load (.loc "pkt")) (.lit .i32 0)) ".f_port")) (.lit .i32 202)))
          (.expr (.call (.fn "handle_answ") (.cons (.load (.fld (.elem (.load (.loc "pkt")) (.lit .i32 0)) ".data")) (.cons (.load (.fld (.elem (.load (.loc "pkt")) (.lit .i32 0)) ".size")) (.nil)))))
          (.skip))))

/-- src/ext/clock_sync.c:203-237 -/
def uwan_clock_sync_send_time_req : Fun where
  params := [("ans_required", some .bool)]
  result := some .u32
  body :=
    .seq (.decl "rq_buf" (List.replicate 32 (.uninit (some .u8))))
    (.seq (.decl "offset" ([.uninit (some .u8)]))
      (.seq (.expr (.asg (.loc "offset") (.lit .i32 0)))
        (.seq (.ite (.bin .eq (.load (.glob "cs_callbacks")) (.null))
            (.retVal (.lit .i32 1))
            (.skip))
          (.seq (.ite (.load (.glob "ans_pending"))
              (.seq (.expr (.call (.fn "memcpy") (.cons (.addr (.loc "rq_buf")) (.cons (.addr (.glob "ans_buf")) (.cons (.load (.glob "ans_buf_data_size")) (.nil))))))
                (.expr (.asg (.loc "offset") (.load (.glob "ans_buf_data_size")))))
              (.skip))
            (.seq (.ite (.bin .eq (.load (.glob "app_time_req_pending")) (.lit .i32 0))
                (.expr (.asg (.glob "app_time_req_pending") (.lit .i32 1)))
                (.skip))
              (.seq (.ite (.bin .lt (.bin .sub (.lit .u32 32) (.load (.loc "offset"))) (.lit .i32 6))
                  (.seq (.expr (.asg (.loc "offset") (.lit .i32 0)))
                    (.expr (.asg (.glob "ans_pending") (.lit .i32 0))))
                  (.skip))
                (.seq (.decl "cur_time" ([.uninit (some .u32)]))
                  (.seq (.expr (.asg (.loc "cur_time") (.call (.fn "utils_unix_to_gps") (.cons (.call (.load (.fld (.elem (.load (.glob "cs_callbacks")) (.lit .i32 0)) ".get_unixtime")) (.nil)) (.nil)))))
                    (.seq (.expr (.asg (.elem (.addr (.loc "rq_buf")) (.post .add (.loc "offset"))) (.lit .i32 1)))
                      (.seq (.expr (.asg (.elem (.addr (.loc "rq_buf")) (.post .add (.loc "offset"))) (.load (.loc "cur_time"))))
                        (.seq (.expr (.asg (.elem (.addr (.loc "rq_buf")) (.post .add (.loc "offset"))) (.bin .shr (.load (.loc "cur_time")) (.lit .i32 8))))
                          (.seq (.expr (.asg (.elem (.addr (.loc "rq_buf")) (.post .add (.loc "offset"))) (.bin .shr (.load (.loc "cur_time")) (.lit .i32 16))))
                            (.seq (.expr (.asg (.elem (.addr (.loc "rq_buf")) (.post .add (.loc "offset"))) (.bin .shr (.load (.loc "cur_time")) (.lit .i32 24))))
                              (.seq (.expr (.asg (.elem (.addr (.loc "rq_buf")) (.post .add (.loc "offset"))) (.bin .or (.load (.glob "state_token_req")) (.bin .shl (.load (.loc "ans_required")) (.lit .i32 4)))))
                                (.retVal (.call (.fn "uwan_send_frame") (.cons (.lit .i32 202) (.cons (.addr (.loc "rq_buf")) (.cons (.load (.loc "offset")) (.cons (.lit .i32 0) (.nil)))))))))))))))))))))

/-- src/ext/clock_sync.c:239-242 -/
def uwan_clock_sync_is_answ_pending : Fun where
  params := []
  result := some .bool
  body :=
    .retVal (.load (.glob "ans_pending"))

/-- src/ext/clock_sync.c:244-251 -/
def uwan_clock_sync_send_answ : Fun where
  params := []
  result := some .u32
  body :=
    .seq (.ite (.bin .eq (.load (.glob "ans_pending")) (.lit .i32 0))
      (.retVal (.lit .i32 1))
      (.skip))
    (.retVal (.call (.fn "uwan_send_frame") (.cons (.lit .i32 202) (.cons (.addr (.glob "ans_buf")) (.cons (.load (.glob "ans_buf_data_size")) (.cons (.lit .i32 0) (.nil)))))))

/-- The functions of src/ext/clock_sync.c. -/
def clockSyncFuns : Program := [
  ("periodicity_from_period_id", periodicity_from_period_id),
  ("handle_answ", handle_answ),
  ("uwan_clock_sync_init", uwan_clock_sync_init),
  ("uwan_clock_sync_handle_time_answ", uwan_clock_sync_handle_time_answ),
  ("uwan_clock_sync_send_time_req", uwan_clock_sync_send_time_req),
  ("uwan_clock_sync_is_answ_pending", uwan_clock_sync_is_answ_pending),
  ("uwan_clock_sync_send_answ", uwan_clock_sync_send_answ)]

end Uwan.C.Src
