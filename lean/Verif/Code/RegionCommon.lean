import Verif.Code.Sem

/-! Printed by `tools/c2lean.py` from `src/region/common.c`; do not edit. -/

namespace Uwan.C.Src

/-- The variables of src/region/common.c, as they start. -/
def regionCommonVars : Objs := [
]

/-- src/region/common.c:33-47 -/
def region_86x_handle_cflist : Fun where
  params := [("cflist", none), ("ch_first", some .u8)]
  result := none
  body :=
    .seq (.decl "cflist_type" ([.uninit (some .u8)]))
    (.seq (.expr (.asg (.loc "cflist_type") (.load (.elem (.load (.loc "cflist")) (.bin .sub (.lit .i32 16) (.lit .i32 1))))))
      (.seq (.ite (.bin .ne (.load (.loc "cflist_type")) (.lit .i32 0))
          (.ret)
          (.skip))
        (.seq (.decl "idx" ([.uninit (some .i32)]))
          (.seq (.expr (.asg (.loc "idx") (.lit .i32 0)))
            (.loop (.bin .lt (.load (.loc "idx")) (.lit .i32 5)) (.seq (.expr (.post .add (.loc "idx")))
                (.expr (.asgOp .add (.loc "cflist") (.lit .i32 3))))
              (.seq (.decl "freq" ([.uninit (some .u32)]))
                (.seq (.expr (.asg (.loc "freq") (.bin .or (.bin .or (.load (.elem (.load (.loc "cflist")) (.lit .i32 0))) (.bin .shl (.load (.elem (.load (.loc "cflist")) (.lit .i32 1))) (.lit .i32 8))) (.bin .shl (.load (.elem (.load (.loc "cflist")) (.lit .i32 2))) (.lit .i32 16)))))
                  (.ite (.bin .eq (.load (.loc "freq")) (.lit .i32 0))
                    (.expr (.call (.fn "uwan_enable_channel") (.cons (.bin .add (.load (.loc "idx")) (.load (.loc "ch_first"))) (.cons (.lit .i32 0) (.nil)))))
                    (.expr (.call (.fn "uwan_set_channel") (.cons (.bin .add (.load (.loc "idx")) (.load (.loc "ch_first"))) (.cons (.bin .mul (.load (.loc "freq")) (.lit .i32 100)) (.nil)))))))))))))

/-- src/region/common.c:49-76 -/
def region_86x_handle_adr_ch_mask : Fun where
  params := [("ch_mask", some .u16), ("ch_mask_cntl", some .u8), ("dry_run", some .bool)]
  result := some .bool
  body :=
    .block
    (.ite (.bin .eq (.load (.loc "ch_mask_cntl")) (.lit .i32 0))
      (.seq (.decl "i" ([.uninit (some .i32)]))
        (.seq (.expr (.asg (.loc "i") (.lit .i32 0)))
          (.seq (.loop (.bin .lt (.load (.loc "i")) (.lit .i32 16)) (.expr (.post .add (.loc "i")))
              (.seq (.decl "enable" ([.uninit (some .bool)]))
                (.seq (.expr (.asg (.loc "enable") (.bin .ne (.bin .and (.load (.loc "ch_mask")) (.bin .shl (.lit .i32 1) (.load (.loc "i")))) (.lit .i32 0))))
                  (.ite (.load (.loc "dry_run"))
                    (.ite (.and (.load (.loc "enable")) (.bin .eq (.call (.fn "channel_is_exist") (.cons (.load (.loc "i")) (.nil))) (.lit .i32 0)))
                      (.retVal (.lit .i32 0))
                      (.skip))
                    (.expr (.call (.fn "uwan_enable_channel") (.cons (.load (.loc "i")) (.cons (.load (.loc "enable")) (.nil)))))))))
            (.retVal (.lit .i32 1)))))
      (.ite (.bin .eq (.load (.loc "ch_mask_cntl")) (.lit .i32 6))
        (.seq (.ite (.bin .eq (.load (.loc "dry_run")) (.lit .i32 0))
            (.expr (.call (.fn "channels_enable_all") (.nil)))
            (.skip))
          (.retVal (.lit .i32 1)))
        (.retVal (.lit .i32 0))))

/-- The functions of src/region/common.c. -/
def regionCommonFuns : Program := [
  ("region_86x_handle_cflist", region_86x_handle_cflist),
  ("region_86x_handle_adr_ch_mask", region_86x_handle_adr_ch_mask)]

end Uwan.C.Src
