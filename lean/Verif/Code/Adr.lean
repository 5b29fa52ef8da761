import Verif.Code.Sem

/-! Printed by `tools/c2lean.py` from `src/adr.c`; do not edit. -/

namespace Uwan.C.Src

/-- The variables of src/adr.c, as they start. -/
def adrVars : Objs := [
  ("ack_cnt", [.int .u32 0]),
  ("ack_limit", [.int .u8 64]),
  ("ack_delay", [.int .u8 32]),
  ("adr_is_enabled", [.int .bool 0])]

/-- src/adr.c:53-56 -/
def uwan_adr_is_enabled : Fun where
  params := []
  result := some .bool
  body :=
    .retVal (.load (.glob "adr_is_enabled"))

/-- src/adr.c:58-62 -/
def uwan_adr_enable : Fun where
  params := [("enable", some .bool)]
  result := none
  body :=
    .seq (.expr (.asg (.glob "adr_is_enabled") (.load (.loc "enable"))))
    (.expr (.asg (.glob "ack_cnt") (.lit .i32 0)))

/-- src/adr.c:64-68 -/
def uwan_adr_setup_ack : Fun where
  params := [("limit", some .u8), ("delay", some .u8)]
  result := none
  body :=
    .seq (.expr (.asg (.glob "ack_limit") (.load (.loc "limit"))))
    (.expr (.asg (.glob "ack_delay") (.load (.loc "delay"))))

/-- src/adr.c:70-76 -/
def adr_get_req_bit : Fun where
  params := []
  result := some .bool
  body :=
    .seq (.ite (.or (.bin .eq (.load (.glob "adr_is_enabled")) (.lit .i32 0)) (.bin .eq (.load (.glob "uw_session.dr")) (.lit .i32 0)))
      (.retVal (.lit .i32 0))
      (.skip))
    (.retVal (.bin .ge (.load (.glob "ack_cnt")) (.load (.glob "ack_limit"))))

/-- src/adr.c:78-107 -/
def adr_handle_link_req : Fun where
  params := [("dr_txpow", some .u8), ("ch_mask", some .u16), ("redundancy", some .u8)]
  result := some .bool
  body :=
    .seq (.decl "result" ([.uninit (some .u8)]))
    (.seq (.expr (.asg (.loc "result") (.lit .i32 0)))
      (.seq (.decl "dr" ([.uninit (some .u8)]))
        (.seq (.expr (.asg (.loc "dr") (.bin .and (.bin .shr (.load (.loc "dr_txpow")) (.lit .i32 4)) (.lit .i32 15))))
          (.seq (.ite (.call (.fn "is_valid_dr") (.cons (.load (.loc "dr")) (.nil)))
              (.expr (.asgOp .or (.loc "result") (.lit .i32 2)))
              (.skip))
            (.seq (.decl "ch_mask_cntl" ([.uninit (some .u8)]))
              (.seq (.expr (.asg (.loc "ch_mask_cntl") (.bin .and (.bin .shr (.load (.loc "redundancy")) (.lit .i32 4)) (.lit .i32 4))))
                (.seq (.ite (.call (.load (.fld (.elem (.load (.glob "uw_region")) (.lit .i32 0)) ".handle_adr_ch_mask")) (.cons (.load (.loc "ch_mask")) (.cons (.load (.loc "ch_mask_cntl")) (.cons (.lit .i32 1) (.nil)))))
                    (.expr (.asgOp .or (.loc "result") (.lit .i32 1)))
                    (.skip))
                  (.seq (.decl "tx_power" ([.uninit (some .u8)]))
                    (.seq (.expr (.asg (.loc "tx_power") (.bin .and (.load (.loc "dr_txpow")) (.lit .i32 15))))
                      (.seq (.ite (.call (.fn "is_valid_tx_power") (.cons (.load (.loc "tx_power")) (.nil)))
                          (.expr (.asgOp .or (.loc "result") (.lit .i32 4)))
                          (.skip))
                        (.seq (.ite (.bin .eq (.load (.loc "result")) (.lit .i32 7))
                            (.seq (.decl "nb_trans" ([.uninit (some .u8)]))
                              (.seq (.expr (.asg (.loc "nb_trans") (.bin .and (.load (.loc "redundancy")) (.lit .i32 15))))
                                (.seq (.ite (.bin .eq (.call (.fn "set_nb_trans") (.cons (.load (.loc "nb_trans")) (.nil))) (.lit .i32 0))
                                    (.expr (.call (.fn "reset_nb_trans") (.nil)))
                                    (.skip))
                                  (.seq (.expr (.call (.fn "set_tx_power") (.cons (.load (.loc "tx_power")) (.nil))))
                                    (.seq (.expr (.asg (.glob "uw_session.dr") (.cast .u32 (.load (.loc "dr")))))
                                      (.expr (.call (.load (.fld (.elem (.load (.glob "uw_region")) (.lit .i32 0)) ".handle_adr_ch_mask")) (.cons (.load (.loc "ch_mask")) (.cons (.load (.loc "ch_mask_cntl")) (.cons (.lit .i32 0) (.nil)))))))))))
                            (.skip))
                          (.retVal (.call (.fn "mac_enqueue") (.cons (.lit .i32 3) (.cons (.addr (.loc "result")) (.cons (.lit .u32 1) (.nil)))))))))))))))))

/-- src/adr.c:109-117 -/
def adr_handle_uplink : Fun where
  params := []
  result := none
  body :=
    .seq (.expr (.post .add (.glob "ack_cnt")))
    (.ite (.and (.bin .ne (.load (.glob "uw_session.dr")) (.lit .i32 0)) (.bin .gt (.load (.glob "ack_cnt")) (.bin .add (.load (.glob "ack_limit")) (.load (.glob "ack_delay")))))
      (.seq (.expr (.post .sub (.glob "uw_session.dr")))
        (.expr (.asg (.glob "ack_cnt") (.lit .i32 0))))
      (.skip))

/-- src/adr.c:119-122 -/
def adr_handle_downlink : Fun where
  params := []
  result := none
  body :=
    .expr (.asg (.glob "ack_cnt") (.lit .i32 0))

/-- The functions of src/adr.c. -/
def adrFuns : Program := [
  ("uwan_adr_is_enabled", uwan_adr_is_enabled),
  ("uwan_adr_enable", uwan_adr_enable),
  ("uwan_adr_setup_ack", uwan_adr_setup_ack),
  ("adr_get_req_bit", adr_get_req_bit),
  ("adr_handle_link_req", adr_handle_link_req),
  ("adr_handle_uplink", adr_handle_uplink),
  ("adr_handle_downlink", adr_handle_downlink)]

end Uwan.C.Src
