import Verif.Code.Sem

/-! Printed by `tools/c2lean.py` from `src/utils.c`; do not edit. -/

namespace Uwan.C.Src

/-- The variables of src/utils.c, as they start. -/
def utilsVars : Objs := [
]

/-- src/utils.c:31-34 -/
def utils_random_init : Fun where
  params := [("seed", some .u32)]
  result := none
  body :=
    .expr (.call (.fn "srand") (.cons (.load (.loc "seed")) (.nil)))

/-- src/utils.c:36-39 -/
def utils_get_random : Fun where
  params := [("max", some .u32)]
  result := some .u32
  body :=
    .retVal (.bin .mod (.call (.fn "rand") (.nil)) (.load (.loc "max")))

/-- src/utils.c:41-46 -/
def utils_unix_to_gps : Fun where
  params := [("timestamp", some .u32)]
  result := some .u32
  body :=
    .seq (.decl "gps_time" ([.uninit (some .u32)]))
    (.seq (.expr (.asg (.loc "gps_time") (.bin .sub (.load (.loc "timestamp")) (.lit .i32 315964800))))
      (.seq (.expr (.asgOp .add (.loc "gps_time") (.lit .i32 18)))
        (.retVal (.load (.loc "gps_time")))))

/-- src/utils.c:48-53 -/
def utils_gps_to_unix : Fun where
  params := [("timestamp", some .u32)]
  result := some .u32
  body :=
    .seq (.decl "unix_time" ([.uninit (some .u32)]))
    (.seq (.expr (.asg (.loc "unix_time") (.bin .add (.load (.loc "timestamp")) (.lit .i32 315964800))))
      (.seq (.expr (.asgOp .sub (.loc "unix_time") (.lit .i32 18)))
        (.retVal (.load (.loc "unix_time")))))

/-- The functions of src/utils.c. -/
def utilsFuns : Program := [
  ("utils_random_init", utils_random_init),
  ("utils_get_random", utils_get_random),
  ("utils_unix_to_gps", utils_unix_to_gps),
  ("utils_gps_to_unix", utils_gps_to_unix)]

end Uwan.C.Src
