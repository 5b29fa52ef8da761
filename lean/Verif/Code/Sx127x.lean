import Verif.Code.Sem

/-! Printed by `tools/c2lean.py` from `src/device/sx127x.c`; do not edit. -/

namespace Uwan.C.Sx127xSrc

/-- The variables of src/device/sx127x.c, as they start. -/
def sx127xVars : Objs := [
  ("sf_table", [.int .u8 96, .int .u8 112, .int .u8 128, .int .u8 144, .int .u8 160, .int .u8 176, .int .u8 192]),
  ("bw_table", [.int .u8 112, .int .u8 128, .int .u8 144]),
  ("cr_table", [.int .u8 2, .int .u8 4, .int .u8 6, .int .u8 8]),
  ("hal", [.null]),
  ("rssi_offset", [.int .i16 0]),
  ("user_evt_handler", [.null]),
  ("sx127x_dev.init", [.fn "sx127x_init"]),
  ("sx127x_dev.sleep", [.fn "sx127x_sleep"]),
  ("sx127x_dev.set_frequency", [.fn "sx127x_set_freq"]),
  ("sx127x_dev.set_power", [.fn "sx127x_set_power"]),
  ("sx127x_dev.set_public_network", [.fn "sx127x_set_public_network"]),
  ("sx127x_dev.setup", [.fn "sx127x_setup"]),
  ("sx127x_dev.tx", [.fn "sx127x_tx"]),
  ("sx127x_dev.rx", [.fn "sx127x_rx"]),
  ("sx127x_dev.read_packet", [.fn "sx127x_read_packet"]),
  ("sx127x_dev.rand", [.fn "sx127x_rand"]),
  ("sx127x_dev.irq_handler", [.fn "sx127x_irq_handler"]),
  ("sx127x_dev.set_evt_handler", [.fn "sx127x_set_evt_handler"])]

/-- src/device/sx127x.c:89-95 -/
def write_reg : Fun where
  params := [("addr", some .u8), ("data", some .u8)]
  result := none
  body :=
    .seq (.expr (.call (.load (.fld (.elem (.load (.glob "hal")) (.lit .i32 0)) ".select")) (.cons (.lit .i32 1) (.nil))))
    (.seq (.expr (.call (.load (.fld (.elem (.load (.glob "hal")) (.lit .i32 0)) ".spi_xfer")) (.cons (.bin .or (.load (.loc "addr")) (.lit .i32 128)) (.nil))))
      (.seq (.expr (.call (.load (.fld (.elem (.load (.glob "hal")) (.lit .i32 0)) ".spi_xfer")) (.cons (.load (.loc "data")) (.nil))))
        (.expr (.call (.load (.fld (.elem (.load (.glob "hal")) (.lit .i32 0)) ".select")) (.cons (.lit .i32 0) (.nil))))))

/-- src/device/sx127x.c:97-104 -/
def write_regs : Fun where
  params := [("addr", some .u8), ("data", none), ("size", some .u8)]
  result := none
  body :=
    .seq (.expr (.call (.load (.fld (.elem (.load (.glob "hal")) (.lit .i32 0)) ".select")) (.cons (.lit .i32 1) (.nil))))
    (.seq (.expr (.call (.load (.fld (.elem (.load (.glob "hal")) (.lit .i32 0)) ".spi_xfer")) (.cons (.bin .or (.load (.loc "addr")) (.lit .i32 128)) (.nil))))
      (.seq (.decl "i" ([.uninit (some .u8)]))
        (.seq (.expr (.asg (.loc "i") (.lit .i32 0)))
          (.seq (.loop (.bin .lt (.load (.loc "i")) (.load (.loc "size"))) (.expr (.post .add (.loc "i")))
              (.expr (.call (.load (.fld (.elem (.load (.glob "hal")) (.lit .i32 0)) ".spi_xfer")) (.cons (.load (.elem (.load (.loc "data")) (.load (.loc "i")))) (.nil)))))
            (.expr (.call (.load (.fld (.elem (.load (.glob "hal")) (.lit .i32 0)) ".select")) (.cons (.lit .i32 0) (.nil))))))))

/-- src/device/sx127x.c:106-116 -/
def read_reg : Fun where
  params := [("addr", some .u8)]
  result := some .u8
  body :=
    .seq (.decl "data" ([.uninit (some .u8)]))
    (.seq (.expr (.call (.load (.fld (.elem (.load (.glob "hal")) (.lit .i32 0)) ".select")) (.cons (.lit .i32 1) (.nil))))
      (.seq (.expr (.call (.load (.fld (.elem (.load (.glob "hal")) (.lit .i32 0)) ".spi_xfer")) (.cons (.load (.loc "addr")) (.nil))))
        (.seq (.expr (.asg (.loc "data") (.call (.load (.fld (.elem (.load (.glob "hal")) (.lit .i32 0)) ".spi_xfer")) (.cons (.lit .i32 0) (.nil)))))
          (.seq (.expr (.call (.load (.fld (.elem (.load (.glob "hal")) (.lit .i32 0)) ".select")) (.cons (.lit .i32 0) (.nil))))
            (.retVal (.load (.loc "data")))))))

/-- src/device/sx127x.c:118-126 -/
def write_array : Fun where
  params := [("hal", none), ("addr", some .u8), ("buf", none), ("size", some .u8)]
  result := none
  body :=
    .seq (.expr (.call (.load (.fld (.elem (.load (.loc "hal")) (.lit .i32 0)) ".select")) (.cons (.lit .i32 1) (.nil))))
    (.seq (.expr (.call (.load (.fld (.elem (.load (.loc "hal")) (.lit .i32 0)) ".spi_xfer")) (.cons (.bin .or (.load (.loc "addr")) (.lit .i32 128)) (.nil))))
      (.seq (.decl "i" ([.uninit (some .i32)]))
        (.seq (.expr (.asg (.loc "i") (.lit .i32 0)))
          (.seq (.loop (.bin .lt (.load (.loc "i")) (.load (.loc "size"))) (.expr (.post .add (.loc "i")))
              (.expr (.call (.load (.fld (.elem (.load (.loc "hal")) (.lit .i32 0)) ".spi_xfer")) (.cons (.load (.elem (.load (.loc "buf")) (.load (.loc "i")))) (.nil)))))
            (.expr (.call (.load (.fld (.elem (.load (.loc "hal")) (.lit .i32 0)) ".select")) (.cons (.lit .i32 0) (.nil))))))))

/-- src/device/sx127x.c:128-136 -/
def read_array : Fun where
  params := [("hal", none), ("addr", some .u8), ("buf", none), ("size", some .u8)]
  result := none
  body :=
    .seq (.expr (.call (.load (.fld (.elem (.load (.loc "hal")) (.lit .i32 0)) ".select")) (.cons (.lit .i32 1) (.nil))))
    (.seq (.expr (.call (.load (.fld (.elem (.load (.loc "hal")) (.lit .i32 0)) ".spi_xfer")) (.cons (.load (.loc "addr")) (.nil))))
      (.seq (.decl "i" ([.uninit (some .i32)]))
        (.seq (.expr (.asg (.loc "i") (.lit .i32 0)))
          (.seq (.loop (.bin .lt (.load (.loc "i")) (.load (.loc "size"))) (.expr (.post .add (.loc "i")))
              (.expr (.asg (.elem (.load (.loc "buf")) (.load (.loc "i"))) (.call (.load (.fld (.elem (.load (.loc "hal")) (.lit .i32 0)) ".spi_xfer")) (.cons (.lit .i32 0) (.nil))))))
            (.expr (.call (.load (.fld (.elem (.load (.loc "hal")) (.lit .i32 0)) ".select")) (.cons (.lit .i32 0) (.nil))))))))

/-- src/device/sx127x.c:138-143 -/
def set_op_mode : Fun where
  params := [("mode", some .u8)]
  result := none
  body :=
    .seq (.decl "op_mode" ([.uninit (some .u8)]))
    (.seq (.expr (.asg (.loc "op_mode") (.call (.fn "read_reg") (.cons (.lit .i32 1) (.nil)))))
      (.seq (.expr (.asg (.loc "op_mode") (.bin .or (.bin .and (.load (.loc "op_mode")) (.bnot (.bin .shl (.lit .i32 7) (.lit .i32 0)))) (.load (.loc "mode")))))
        (.expr (.call (.fn "write_reg") (.cons (.lit .i32 1) (.cons (.load (.loc "op_mode")) (.nil)))))))

/-- src/device/sx127x.c:145-154 -/
def lora_set_modem_conf1 : Fun where
  params := [("bw", some .u8), ("cr", some .u8), ("imp_header", some .bool)]
  result := none
  body :=
    .seq (.decl "conf" ([.uninit (some .u8)]))
    (.seq (.expr (.asg (.loc "conf") (.bin .or (.load (.loc "bw")) (.load (.loc "cr")))))
      (.seq (.ite (.load (.loc "imp_header"))
          (.expr (.asgOp .or (.loc "conf") (.bin .shl (.lit .i32 1) (.lit .i32 0))))
          (.skip))
        (.expr (.call (.fn "write_reg") (.cons (.lit .i32 29) (.cons (.load (.loc "conf")) (.nil)))))))

/-- src/device/sx127x.c:156-168 -/
def lora_set_modem_conf2 : Fun where
  params := [("sf", some .u8), ("crc_on", some .bool), ("tx_cont", some .bool)]
  result := none
  body :=
    .seq (.decl "conf" ([.uninit (some .u8)]))
    (.seq (.expr (.asg (.loc "conf") (.load (.loc "sf"))))
      (.seq (.ite (.load (.loc "crc_on"))
          (.expr (.asgOp .or (.loc "conf") (.bin .shl (.lit .i32 1) (.lit .i32 2))))
          (.skip))
        (.seq (.ite (.load (.loc "tx_cont"))
            (.expr (.asgOp .or (.loc "conf") (.bin .shl (.lit .i32 1) (.lit .i32 3))))
            (.skip))
          (.expr (.call (.fn "write_reg") (.cons (.lit .i32 30) (.cons (.load (.loc "conf")) (.nil))))))))

/-- src/device/sx127x.c:170-183 -/
def lora_set_modem_conf3 : Fun where
  params := [("low_dr_opti", some .bool), ("agc_auto_on", some .bool)]
  result := none
  body :=
    .seq (.decl "conf" ([.uninit (some .u8)]))
    (.seq (.expr (.asg (.loc "conf") (.lit .i32 0)))
      (.seq (.ite (.load (.loc "low_dr_opti"))
          (.expr (.asgOp .or (.loc "conf") (.bin .shl (.lit .i32 1) (.lit .i32 3))))
          (.skip))
        (.seq (.ite (.load (.loc "agc_auto_on"))
            (.expr (.asgOp .or (.loc "conf") (.bin .shl (.lit .i32 1) (.lit .i32 2))))
            (.skip))
          (.expr (.call (.fn "write_reg") (.cons (.lit .i32 38) (.cons (.load (.loc "conf")) (.nil))))))))

/-- src/device/sx127x.c:185-195 -/
def set_inverted_iq : Fun where
  params := [("inverted_iq", some .bool)]
  result := none
  body :=
    .ite (.load (.loc "inverted_iq"))
    (.seq (.expr (.call (.fn "write_reg") (.cons (.lit .i32 51) (.cons (.lit .i32 102) (.nil)))))
      (.expr (.call (.fn "write_reg") (.cons (.lit .i32 59) (.cons (.lit .i32 25) (.nil))))))
    (.seq (.expr (.call (.fn "write_reg") (.cons (.lit .i32 51) (.cons (.lit .i32 39) (.nil)))))
      (.expr (.call (.fn "write_reg") (.cons (.lit .i32 59) (.cons (.lit .i32 29) (.nil))))))

/-- src/device/sx127x.c:197-217 -/
def rx_calibartion : Fun where
  params := []
  result := some .bool
  body :=
    .seq (.expr (.call (.fn "sx127x_set_freq") (.cons (.lit .i32 868800000) (.nil))))
    (.seq (.decl "value" ([.uninit (some .u8)]))
      (.seq (.expr (.asg (.loc "value") (.call (.fn "read_reg") (.cons (.lit .i32 59) (.nil)))))
        (.seq (.expr (.asgOp .or (.loc "value") (.bin .shl (.lit .i32 1) (.lit .i32 6))))
          (.seq (.expr (.call (.fn "write_reg") (.cons (.lit .i32 59) (.cons (.load (.loc "value")) (.nil)))))
            (.seq (.decl "timeout" ([.uninit (some .u8)]))
              (.seq (.expr (.asg (.loc "timeout") (.lit .i32 255)))
                (.seq (.doWhile
                    (.seq (.expr (.post .sub (.loc "timeout")))
                      (.seq (.expr (.call (.load (.fld (.elem (.load (.glob "hal")) (.lit .i32 0)) ".delay_us")) (.cons (.lit .i32 1000) (.nil))))
                        (.expr (.asg (.loc "value") (.call (.fn "read_reg") (.cons (.lit .i32 59) (.nil)))))))
                    (.and (.bin .ne (.load (.loc "timeout")) (.lit .i32 0)) (.bin .and (.load (.loc "value")) (.bin .shl (.lit .i32 1) (.lit .i32 5)))))
                  (.retVal (.bin .ne (.load (.loc "timeout")) (.lit .i32 0))))))))))

/-- src/device/sx127x.c:219-251 -/
def sx127x_init : Fun where
  params := [("r_hal", none), ("opts", none)]
  result := some .bool
  body :=
    .seq (.expr (.asg (.glob "hal") (.load (.loc "r_hal"))))
    (.seq (.expr (.call (.load (.fld (.elem (.load (.glob "hal")) (.lit .i32 0)) ".reset")) (.cons (.lit .i32 1) (.nil))))
      (.seq (.expr (.call (.load (.fld (.elem (.load (.glob "hal")) (.lit .i32 0)) ".delay_us")) (.cons (.lit .i32 150) (.nil))))
        (.seq (.expr (.call (.load (.fld (.elem (.load (.glob "hal")) (.lit .i32 0)) ".reset")) (.cons (.lit .i32 0) (.nil))))
          (.seq (.expr (.call (.load (.fld (.elem (.load (.glob "hal")) (.lit .i32 0)) ".delay_us")) (.cons (.lit .i32 6000) (.nil))))
            (.seq (.ite (.load (.fld (.elem (.load (.glob "hal")) (.lit .i32 0)) ".io_deinit"))
                (.expr (.call (.load (.fld (.elem (.load (.glob "hal")) (.lit .i32 0)) ".io_deinit")) (.nil)))
                (.skip))
              (.seq (.ite (.bin .ne (.call (.fn "read_reg") (.cons (.lit .i32 66) (.nil))) (.lit .i32 18))
                  (.retVal (.lit .i32 0))
                  (.skip))
                (.seq (.ite (.bin .eq (.call (.fn "rx_calibartion") (.nil)) (.lit .i32 0))
                    (.retVal (.lit .i32 0))
                    (.skip))
                  (.seq (.decl "mode" ([.uninit (some .u8)]))
                    (.seq (.expr (.asg (.loc "mode") (.bin .shl (.lit .i32 0) (.lit .i32 0))))
                      (.seq (.expr (.call (.fn "write_reg") (.cons (.lit .i32 1) (.cons (.load (.loc "mode")) (.nil)))))
                        (.seq (.expr (.asg (.loc "mode") (.bin .or (.bin .shl (.lit .i32 1) (.lit .i32 7)) (.bin .shl (.lit .i32 0) (.lit .i32 0)))))
                          (.seq (.expr (.call (.fn "write_reg") (.cons (.lit .i32 1) (.cons (.load (.loc "mode")) (.nil)))))
                            (.seq (.expr (.call (.fn "sx127x_set_public_network") (.cons (.lit .i32 1) (.nil))))
                              (.seq (.expr (.call (.fn "write_reg") (.cons (.lit .i32 10) (.cons (.bin .shl (.lit .i32 8) (.lit .i32 0)) (.nil)))))
                                (.seq (.decl "lna" ([.uninit (some .u8)]))
                                  (.seq (.expr (.asg (.loc "lna") (.bin .or (.bin .shl (.lit .i32 1) (.lit .i32 5)) (.bin .shl (.lit .i32 3) (.lit .i32 0)))))
                                    (.seq (.expr (.call (.fn "write_reg") (.cons (.lit .i32 12) (.cons (.load (.loc "lna")) (.nil)))))
                                      (.retVal (.lit .i32 1)))))))))))))))))))

/-- src/device/sx127x.c:253-258 -/
def sx127x_sleep : Fun where
  params := []
  result := none
  body :=
    .seq (.expr (.call (.fn "set_op_mode") (.cons (.bin .shl (.lit .i32 0) (.lit .i32 0)) (.nil))))
    (.ite (.load (.fld (.elem (.load (.glob "hal")) (.lit .i32 0)) ".io_deinit"))
      (.expr (.call (.load (.fld (.elem (.load (.glob "hal")) (.lit .i32 0)) ".io_deinit")) (.nil)))
      (.skip))

/-- src/device/sx127x.c:272-302 -/
def sx127x_set_power : Fun where
  params := [("power", some .i8)]
  result := some .bool
  body :=
    .seq (.decl "pa_conf" ([.uninit (some .u8)]))
    (.seq (.expr (.asg (.loc "pa_conf") (.lit .i32 0)))
      (.seq (.ite (.or (.bin .lt (.load (.loc "power")) (.bin .sub (.lit .i32 0) (.lit .i32 4))) (.bin .gt (.load (.loc "power")) (.lit .i32 17)))
          (.retVal (.lit .i32 0))
          (.skip))
        (.seq (.ite (.bin .le (.load (.loc "power")) (.lit .i32 14))
            (.seq (.decl "pmax" ([.uninit (some .u8)]))
              (.seq (.ite (.bin .lt (.load (.loc "power")) (.lit .i32 0))
                  (.seq (.expr (.asg (.loc "pmax") (.lit .i32 0)))
                    (.expr (.asgOp .add (.loc "power") (.lit .i32 4))))
                  (.expr (.asg (.loc "pmax") (.lit .i32 7))))
                (.seq (.expr (.asg (.loc "pa_conf") (.bin .shl (.lit .i32 0) (.lit .i32 7))))
                  (.seq (.expr (.asgOp .or (.loc "pa_conf") (.bin .shl (.load (.loc "pmax")) (.lit .i32 4))))
                    (.seq (.expr (.asgOp .or (.loc "pa_conf") (.bin .and (.cast .u8 (.load (.loc "power"))) (.lit .i32 15))))
                      (.expr (.asg (.glob "rssi_offset") (.bin .sub (.lit .i32 0) (.lit .i32 164)))))))))
            (.seq (.expr (.asg (.loc "pa_conf") (.bin .shl (.lit .i32 1) (.lit .i32 7))))
              (.seq (.expr (.asgOp .or (.loc "pa_conf") (.bin .and (.cast .u8 (.bin .sub (.load (.loc "power")) (.lit .i32 2))) (.lit .i32 15))))
                (.expr (.asg (.glob "rssi_offset") (.bin .sub (.lit .i32 0) (.lit .i32 157)))))))
          (.seq (.expr (.call (.fn "write_reg") (.cons (.lit .i32 9) (.cons (.load (.loc "pa_conf")) (.nil)))))
            (.retVal (.lit .i32 1))))))

/-- src/device/sx127x.c:304-310 -/
def sx127x_set_public_network : Fun where
  params := [("is_public", some .bool)]
  result := none
  body :=
    .ite (.load (.loc "is_public"))
    (.expr (.call (.fn "write_reg") (.cons (.lit .i32 57) (.cons (.lit .i32 52) (.nil)))))
    (.expr (.call (.fn "write_reg") (.cons (.lit .i32 57) (.cons (.lit .i32 20) (.nil)))))

/-- src/device/sx127x.c:312-327 -/
def sx127x_setup : Fun where
  params := [("params", none)]
  result := none
  body :=
    .seq (.expr (.call (.fn "set_op_mode") (.cons (.bin .shl (.lit .i32 1) (.lit .i32 0)) (.nil))))
    (.seq (.expr (.call (.fn "lora_set_modem_conf1") (.cons (.load (.elem (.addr (.glob "bw_table")) (.load (.fld (.elem (.load (.loc "params")) (.lit .i32 0)) ".bw")))) (.cons (.load (.elem (.addr (.glob "cr_table")) (.load (.fld (.elem (.load (.loc "params")) (.lit .i32 0)) ".cr")))) (.cons (.load (.fld (.elem (.load (.loc "params")) (.lit .i32 0)) ".implicit_header")) (.nil))))))
      (.seq (.expr (.call (.fn "lora_set_modem_conf2") (.cons (.load (.elem (.addr (.glob "sf_table")) (.load (.fld (.elem (.load (.loc "params")) (.lit .i32 0)) ".sf")))) (.cons (.load (.fld (.elem (.load (.loc "params")) (.lit .i32 0)) ".crc_on")) (.cons (.lit .i32 0) (.nil))))))
        (.seq (.decl "low_dr_opti" ([.uninit (some .bool)]))
          (.seq (.expr (.asg (.loc "low_dr_opti") (.bin .ge (.load (.fld (.elem (.load (.loc "params")) (.lit .i32 0)) ".sf")) (.lit .i32 5))))
            (.seq (.expr (.call (.fn "lora_set_modem_conf3") (.cons (.load (.loc "low_dr_opti")) (.cons (.lit .i32 1) (.nil)))))
              (.seq (.expr (.call (.fn "set_inverted_iq") (.cons (.load (.fld (.elem (.load (.loc "params")) (.lit .i32 0)) ".inverted_iq")) (.nil))))
                (.ite (.load (.fld (.elem (.load (.glob "hal")) (.lit .i32 0)) ".io_init"))
                  (.expr (.call (.load (.fld (.elem (.load (.glob "hal")) (.lit .i32 0)) ".io_init")) (.nil)))
                  (.skip))))))))

/-- src/device/sx127x.c:329-344 -/
def sx127x_tx : Fun where
  params := [("buf", none), ("len", some .u8)]
  result := none
  body :=
    .seq (.expr (.call (.fn "write_reg") (.cons (.lit .i32 14) (.cons (.lit .i32 0) (.nil)))))
    (.seq (.expr (.call (.fn "write_reg") (.cons (.lit .i32 13) (.cons (.lit .i32 0) (.nil)))))
      (.seq (.expr (.call (.fn "write_array") (.cons (.load (.glob "hal")) (.cons (.lit .i32 0) (.cons (.load (.loc "buf")) (.cons (.load (.loc "len")) (.nil)))))))
        (.seq (.expr (.call (.fn "write_reg") (.cons (.lit .i32 34) (.cons (.load (.loc "len")) (.nil)))))
          (.seq (.decl "mask" ([.uninit (some .u8)]))
            (.seq (.expr (.asg (.loc "mask") (.bin .shl (.lit .i32 1) (.lit .i32 3))))
              (.seq (.expr (.call (.fn "write_reg") (.cons (.lit .i32 17) (.cons (.bnot (.load (.loc "mask"))) (.nil)))))
                (.seq (.expr (.call (.fn "write_reg") (.cons (.lit .i32 64) (.cons (.bin .shl (.lit .i32 1) (.lit .i32 6)) (.nil)))))
                  (.seq (.ite (.load (.fld (.elem (.load (.glob "hal")) (.lit .i32 0)) ".ant_sw_ctrl"))
                      (.expr (.call (.load (.fld (.elem (.load (.glob "hal")) (.lit .i32 0)) ".ant_sw_ctrl")) (.cons (.lit .i32 0) (.nil))))
                      (.skip))
                    (.expr (.call (.fn "set_op_mode") (.cons (.bin .shl (.lit .i32 3) (.lit .i32 0)) (.nil))))))))))))

/-- src/device/sx127x.c:346-378 -/
def sx127x_rx : Fun where
  params := [("len", some .u8), ("symb_timeout", some .u16), ("timeout", some .u32)]
  result := none
  body :=
    .seq (.decl "conf2" ([.uninit (some .u8)]))
    (.seq (.expr (.asg (.loc "conf2") (.call (.fn "read_reg") (.cons (.lit .i32 30) (.nil)))))
      (.seq (.expr (.asgOp .and (.loc "conf2") (.bnot (.lit .i32 3))))
        (.seq (.expr (.asgOp .or (.loc "conf2") (.bin .and (.bin .shr (.load (.loc "symb_timeout")) (.lit .i32 8)) (.lit .i32 3))))
          (.seq (.expr (.call (.fn "write_reg") (.cons (.lit .i32 30) (.cons (.load (.loc "conf2")) (.nil)))))
            (.seq (.expr (.call (.fn "write_reg") (.cons (.lit .i32 31) (.cons (.bin .and (.load (.loc "symb_timeout")) (.lit .i32 255)) (.nil)))))
              (.seq (.expr (.call (.fn "write_reg") (.cons (.lit .i32 14) (.cons (.lit .i32 0) (.nil)))))
                (.seq (.expr (.call (.fn "write_reg") (.cons (.lit .i32 13) (.cons (.lit .i32 0) (.nil)))))
                  (.seq (.expr (.call (.fn "write_reg") (.cons (.lit .i32 35) (.cons (.load (.loc "len")) (.nil)))))
                    (.seq (.expr (.call (.fn "write_reg") (.cons (.lit .i32 54) (.cons (.lit .i32 2) (.nil)))))
                      (.seq (.expr (.call (.fn "write_reg") (.cons (.lit .i32 58) (.cons (.lit .i32 100) (.nil)))))
                        (.seq (.decl "mask" ([.uninit (some .u8)]))
                          (.seq (.expr (.asg (.loc "mask") (.bin .or (.bin .shl (.lit .i32 1) (.lit .i32 7)) (.bin .shl (.lit .i32 1) (.lit .i32 6)))))
                            (.seq (.expr (.asgOp .or (.loc "mask") (.bin .shl (.lit .i32 1) (.lit .i32 5))))
                              (.seq (.expr (.call (.fn "write_reg") (.cons (.lit .i32 17) (.cons (.bnot (.load (.loc "mask"))) (.nil)))))
                                (.seq (.decl "dio" ([.uninit (some .u8)]))
                                  (.seq (.expr (.asg (.loc "dio") (.bin .shl (.lit .i32 0) (.lit .i32 6))))
                                    (.seq (.expr (.asgOp .or (.loc "dio") (.bin .shl (.lit .i32 0) (.lit .i32 4))))
                                      (.seq (.expr (.asgOp .or (.loc "dio") (.bin .shl (.lit .i32 2) (.lit .i32 0))))
                                        (.seq (.expr (.call (.fn "write_reg") (.cons (.lit .i32 64) (.cons (.load (.loc "dio")) (.nil)))))
                                          (.seq (.ite (.load (.fld (.elem (.load (.glob "hal")) (.lit .i32 0)) ".ant_sw_ctrl"))
                                              (.expr (.call (.load (.fld (.elem (.load (.glob "hal")) (.lit .i32 0)) ".ant_sw_ctrl")) (.cons (.lit .i32 1) (.nil))))
                                              (.skip))
                                            (.ite (.bin .eq (.load (.loc "timeout")) (.lit .i32 0))
                                              (.expr (.call (.fn "set_op_mode") (.cons (.bin .shl (.lit .i32 6) (.lit .i32 0)) (.nil))))
                                              (.expr (.call (.fn "set_op_mode") (.cons (.bin .shl (.lit .i32 5) (.lit .i32 0)) (.nil)))))))))))))))))))))))))

/-- src/device/sx127x.c:380-401 -/
def sx127x_read_packet : Fun where
  params := [("pkt", none)]
  result := none
  body :=
    .seq (.decl "size" ([.uninit (some .u8)]))
    (.seq (.decl "fifo_ptr" ([.uninit (some .u8)]))
      (.seq (.expr (.asg (.loc "fifo_ptr") (.call (.fn "read_reg") (.cons (.lit .i32 16) (.nil)))))
        (.seq (.expr (.call (.fn "write_reg") (.cons (.lit .i32 13) (.cons (.load (.loc "fifo_ptr")) (.nil)))))
          (.seq (.expr (.asg (.loc "size") (.call (.fn "read_reg") (.cons (.lit .i32 19) (.nil)))))
            (.seq (.ite (.bin .gt (.load (.loc "size")) (.load (.fld (.elem (.load (.loc "pkt")) (.lit .i32 0)) ".size")))
                (.expr (.asg (.loc "size") (.load (.fld (.elem (.load (.loc "pkt")) (.lit .i32 0)) ".size"))))
                (.skip))
              (.seq (.ite (.bin .gt (.load (.loc "size")) (.lit .i32 0))
                  (.expr (.call (.fn "read_array") (.cons (.load (.glob "hal")) (.cons (.lit .i32 0) (.cons (.load (.fld (.elem (.load (.loc "pkt")) (.lit .i32 0)) ".data")) (.cons (.load (.loc "size")) (.nil)))))))
                  (.skip))
                (.seq (.decl "snr_lsb" ([.uninit (some .u8)]))
                  (.seq (.expr (.asg (.loc "snr_lsb") (.call (.fn "read_reg") (.cons (.lit .i32 25) (.nil)))))
                    (.seq (.decl "rssi_lsb" ([.uninit (some .u8)]))
                      (.seq (.expr (.asg (.loc "rssi_lsb") (.call (.fn "read_reg") (.cons (.lit .i32 26) (.nil)))))
                        (.seq (.expr (.asg (.fld (.elem (.load (.loc "pkt")) (.lit .i32 0)) ".size") (.load (.loc "size"))))
                          (.seq (.expr (.asg (.fld (.elem (.load (.loc "pkt")) (.lit .i32 0)) ".rssi") (.bin .add (.load (.glob "rssi_offset")) (.load (.loc "rssi_lsb")))))
                            (.expr (.asg (.fld (.elem (.load (.loc "pkt")) (.lit .i32 0)) ".snr") (.bin .div (.cast .i8 (.load (.loc "snr_lsb"))) (.lit .i32 4))))))))))))))))

/-- src/device/sx127x.c:403-419 -/
def sx127x_rand : Fun where
  params := []
  result := some .u32
  body :=
    .seq (.decl "rssi" ([.uninit (some .u8)]))
    (.seq (.decl "random" ([.uninit (some .u32)]))
      (.seq (.expr (.asg (.loc "random") (.lit .i32 0)))
        (.seq (.expr (.call (.fn "write_reg") (.cons (.lit .i32 17) (.cons (.lit .i32 255) (.nil)))))
          (.seq (.expr (.call (.fn "set_op_mode") (.cons (.bin .shl (.lit .i32 5) (.lit .i32 0)) (.nil))))
            (.seq (.decl "i" ([.uninit (some .i32)]))
              (.seq (.expr (.asg (.loc "i") (.lit .i32 0)))
                (.seq (.loop (.bin .lt (.load (.loc "i")) (.lit .i32 32)) (.expr (.post .add (.loc "i")))
                    (.seq (.expr (.call (.load (.fld (.elem (.load (.glob "hal")) (.lit .i32 0)) ".delay_us")) (.cons (.lit .i32 1000) (.nil))))
                      (.seq (.expr (.asg (.loc "rssi") (.call (.fn "read_reg") (.cons (.lit .i32 44) (.nil)))))
                        (.expr (.asgOp .or (.loc "random") (.bin .shl (.bin .and (.load (.loc "rssi")) (.lit .i32 1)) (.load (.loc "i"))))))))
                  (.seq (.expr (.call (.fn "set_op_mode") (.cons (.bin .shl (.lit .i32 0) (.lit .i32 0)) (.nil))))
                    (.retVal (.load (.loc "random")))))))))))

/-- src/device/sx127x.c:421-453 -/
def sx127x_irq_handler : Fun where
  params := []
  result := some .u8
  body :=
    .seq (.decl "result" ([.uninit (some .u8)]))
    (.seq (.expr (.asg (.loc "result") (.lit .i32 0)))
      (.seq (.decl "flags" ([.uninit (some .u8)]))
        (.seq (.expr (.asg (.loc "flags") (.call (.fn "read_reg") (.cons (.lit .i32 18) (.nil)))))
          (.seq (.decl "cflags" ([.uninit (some .u8)]))
            (.seq (.expr (.asg (.loc "cflags") (.lit .i32 0)))
              (.seq (.ite (.bin .and (.load (.loc "flags")) (.bin .shl (.lit .i32 1) (.lit .i32 3)))
                  (.seq (.expr (.asgOp .or (.loc "cflags") (.bin .shl (.lit .i32 1) (.lit .i32 3))))
                    (.expr (.asgOp .or (.loc "result") (.lit .i32 4))))
                  (.skip))
                (.seq (.ite (.bin .and (.load (.loc "flags")) (.bin .shl (.lit .i32 1) (.lit .i32 6)))
                    (.seq (.expr (.asgOp .or (.loc "cflags") (.bin .shl (.lit .i32 1) (.lit .i32 6))))
                      (.expr (.asgOp .or (.loc "result") (.lit .i32 2))))
                    (.skip))
                  (.seq (.ite (.bin .and (.load (.loc "flags")) (.bin .shl (.lit .i32 1) (.lit .i32 7)))
                      (.seq (.expr (.asgOp .or (.loc "cflags") (.bin .shl (.lit .i32 1) (.lit .i32 7))))
                        (.expr (.asgOp .or (.loc "result") (.lit .i32 1))))
                      (.skip))
                    (.seq (.ite (.bin .and (.load (.loc "flags")) (.bin .shl (.lit .i32 1) (.lit .i32 5)))
                        (.seq (.expr (.asgOp .or (.loc "cflags") (.bin .shl (.lit .i32 1) (.lit .i32 5))))
                          (.expr (.asgOp .or (.loc "result") (.lit .i32 8))))
                        (.skip))
                      (.seq (.expr (.call (.fn "write_reg") (.cons (.lit .i32 18) (.cons (.load (.loc "cflags")) (.nil)))))
                        (.seq (.ite (.load (.glob "user_evt_handler"))
                            (.expr (.call (.load (.glob "user_evt_handler")) (.cons (.load (.loc "result")) (.nil))))
                            (.skip))
                          (.retVal (.load (.loc "result"))))))))))))))

/-- src/device/sx127x.c:455-458 -/
def sx127x_set_evt_handler : Fun where
  params := [("handler", none)]
  result := none
  body :=
    .expr (.asg (.glob "user_evt_handler") (.load (.loc "handler")))

/-- The functions of src/device/sx127x.c. -/
def sx127xFuns : Program := [
  ("write_reg", write_reg),
  ("write_regs", write_regs),
  ("read_reg", read_reg),
  ("write_array", write_array),
  ("read_array", read_array),
  ("set_op_mode", set_op_mode),
  ("lora_set_modem_conf1", lora_set_modem_conf1),
  ("lora_set_modem_conf2", lora_set_modem_conf2),
  ("lora_set_modem_conf3", lora_set_modem_conf3),
  ("set_inverted_iq", set_inverted_iq),
  ("rx_calibartion", rx_calibartion),
  ("sx127x_init", sx127x_init),
  ("sx127x_sleep", sx127x_sleep),
  ("sx127x_set_power", sx127x_set_power),
  ("sx127x_set_public_network", sx127x_set_public_network),
  ("sx127x_setup", sx127x_setup),
  ("sx127x_tx", sx127x_tx),
  ("sx127x_rx", sx127x_rx),
  ("sx127x_read_packet", sx127x_read_packet),
  ("sx127x_rand", sx127x_rand),
  ("sx127x_irq_handler", sx127x_irq_handler),
  ("sx127x_set_evt_handler", sx127x_set_evt_handler)]

end Uwan.C.Sx127xSrc
