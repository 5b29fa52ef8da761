import Verif.Code.Sem

/-! Printed by `tools/c2lean.py` from `src/channels.c`; do not edit. -/

namespace Uwan.C.Src

/-- The variables of src/channels.c, as they start. -/
def channelsVars : Objs := [
  ("uw_channels_max_count", [.int .u8 0]),
  ("uw_channels_mask", List.replicate 2 (.int .u8 0)),
  ("uw_channels", List.replicate 16 (.int .u32 0))]

/-- src/channels.c:40-44 -/
def channels_init : Fun where
  params := []
  result := none
  body :=
    .seq (.expr (.call (.fn "memset") (.cons (.addr (.glob "uw_channels_mask")) (.cons (.lit .i32 0) (.cons (.lit .u32 2) (.nil))))))
    (.expr (.asg (.glob "uw_channels_max_count") (.lit .i32 0)))

/-- src/channels.c:46-63 -/
def channels_get_next : Fun where
  params := []
  result := some .u32
  body :=
    .seq (.decl "ch" ([.uninit (some .u8)]))
    (.seq (.decl "start_ch" ([.uninit (some .u8)]))
      (.seq (.ite (.bin .eq (.load (.glob "uw_channels_max_count")) (.lit .i32 0))
          (.retVal (.lit .i32 0))
          (.skip))
        (.seq (.expr (.asg (.loc "ch") (.asg (.loc "start_ch") (.call (.fn "utils_get_random") (.cons (.load (.glob "uw_channels_max_count")) (.nil))))))
          (.seq (.doWhile
              (.seq (.ite (.bin .and (.load (.elem (.addr (.glob "uw_channels_mask")) (.bin .div (.load (.loc "ch")) (.lit .i32 8)))) (.bin .shl (.lit .i32 1) (.bin .mod (.load (.loc "ch")) (.lit .i32 8))))
                  (.retVal (.load (.elem (.addr (.glob "uw_channels")) (.load (.loc "ch")))))
                  (.skip))
                (.expr (.asg (.loc "ch") (.bin .mod (.bin .add (.load (.loc "ch")) (.lit .i32 1)) (.load (.glob "uw_channels_max_count"))))))
              (.bin .ne (.load (.loc "start_ch")) (.load (.loc "ch"))))
            (.retVal (.lit .i32 0))))))

/-- src/channels.c:65-73 -/
def channels_enable_all : Fun where
  params := []
  result := none
  body :=
    .seq (.decl "i" ([.uninit (some .u8)]))
    (.seq (.expr (.asg (.loc "i") (.lit .i32 0)))
      (.loop (.bin .lt (.load (.loc "i")) (.lit .i32 16)) (.expr (.post .add (.loc "i")))
        (.ite (.bin .ne (.load (.elem (.addr (.glob "uw_channels")) (.load (.loc "i")))) (.lit .i32 0))
          (.seq (.expr (.asg (.glob "uw_channels_max_count") (.cond (.bin .lt (.load (.glob "uw_channels_max_count")) (.bin .add (.load (.loc "i")) (.lit .i32 1))) (.bin .add (.load (.loc "i")) (.lit .i32 1)) (.load (.glob "uw_channels_max_count")))))
            (.expr (.asgOp .or (.elem (.addr (.glob "uw_channels_mask")) (.bin .div (.load (.loc "i")) (.lit .i32 8))) (.bin .shl (.lit .i32 1) (.bin .mod (.load (.loc "i")) (.lit .i32 8))))))
          (.skip))))

/-- src/channels.c:75-81 -/
def channel_is_exist : Fun where
  params := [("index", some .u8)]
  result := some .bool
  body :=
    .seq (.ite (.bin .ge (.load (.loc "index")) (.lit .i32 16))
      (.retVal (.lit .i32 0))
      (.skip))
    (.retVal (.bin .ne (.load (.elem (.addr (.glob "uw_channels")) (.load (.loc "index")))) (.lit .i32 0)))

/-- src/channels.c:83-106 -/
def uwan_enable_channel : Fun where
  params := [("index", some .u8), ("enable", some .bool)]
  result := some .u32
  body :=
    .seq (.ite (.bin .ge (.load (.loc "index")) (.lit .i32 16))
      (.retVal (.lit .i32 3))
      (.skip))
    (.seq (.ite (.load (.loc "enable"))
        (.seq (.ite (.bin .eq (.load (.elem (.addr (.glob "uw_channels")) (.load (.loc "index")))) (.lit .i32 0))
            (.retVal (.lit .i32 3))
            (.skip))
          (.seq (.expr (.asg (.glob "uw_channels_max_count") (.cond (.bin .lt (.load (.glob "uw_channels_max_count")) (.bin .add (.load (.loc "index")) (.lit .i32 1))) (.bin .add (.load (.loc "index")) (.lit .i32 1)) (.load (.glob "uw_channels_max_count")))))
            (.expr (.asgOp .or (.elem (.addr (.glob "uw_channels_mask")) (.bin .div (.load (.loc "index")) (.lit .i32 8))) (.bin .shl (.lit .i32 1) (.bin .mod (.load (.loc "index")) (.lit .i32 8)))))))
        (.seq (.expr (.asgOp .and (.elem (.addr (.glob "uw_channels_mask")) (.bin .div (.load (.loc "index")) (.lit .i32 8))) (.bnot (.bin .shl (.lit .i32 1) (.bin .mod (.load (.loc "index")) (.lit .i32 8))))))
          (.ite (.bin .eq (.load (.glob "uw_channels_max_count")) (.bin .add (.load (.loc "index")) (.lit .i32 1)))
            (.seq (.decl "i" ([.uninit (some .u8)]))
              (.seq (.expr (.asg (.loc "i") (.lit .i32 0)))
                (.loop (.bin .lt (.load (.loc "i")) (.load (.loc "index"))) (.expr (.post .add (.loc "i")))
                  (.ite (.bin .and (.load (.elem (.addr (.glob "uw_channels_mask")) (.bin .div (.load (.loc "i")) (.lit .i32 8)))) (.bin .shl (.lit .i32 1) (.bin .mod (.load (.loc "i")) (.lit .i32 8))))
                    (.expr (.asg (.glob "uw_channels_max_count") (.bin .add (.load (.loc "i")) (.lit .i32 1))))
                    (.skip)))))
            (.skip))))
      (.retVal (.lit .i32 0)))

/-- src/channels.c:108-120 -/
def uwan_set_channel : Fun where
  params := [("index", some .u8), ("frequency", some .u32)]
  result := some .u32
  body :=
    .seq (.ite (.bin .ge (.load (.loc "index")) (.lit .i32 16))
      (.retVal (.lit .i32 3))
      (.skip))
    (.seq (.ite (.not (.call (.fn "is_valid_frequency") (.cons (.load (.loc "frequency")) (.nil))))
        (.retVal (.lit .i32 4))
        (.skip))
      (.seq (.expr (.asg (.elem (.addr (.glob "uw_channels")) (.load (.loc "index"))) (.load (.loc "frequency"))))
        (.seq (.expr (.call (.fn "uwan_enable_channel") (.cons (.load (.loc "index")) (.cons (.lit .i32 1) (.nil)))))
          (.retVal (.lit .i32 0)))))

/-- The functions of src/channels.c. -/
def channelsFuns : Program := [
  ("channels_init", channels_init),
  ("channels_get_next", channels_get_next),
  ("channels_enable_all", channels_enable_all),
  ("channel_is_exist", channel_is_exist),
  ("uwan_enable_channel", uwan_enable_channel),
  ("uwan_set_channel", uwan_set_channel)]

end Uwan.C.Src
