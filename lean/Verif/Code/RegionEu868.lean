import Verif.Code.Sem

/-! Printed by `tools/c2lean.py` from `src/region/eu868.c`; do not edit. -/

namespace Uwan.C.Src

/-- The variables of src/region/eu868.c, as they start. -/
def regionEu868Vars : Objs := [
  ("region_eu868.init", [.fn "eu868_init"]),
  ("region_eu868.handle_cflist", [.fn "eu868_handle_cflist"]),
  ("region_eu868.handle_adr_ch_mask", [.fn "region_86x_handle_adr_ch_mask"])]

/-- src/region/eu868.c:39-47 -/
def eu868_init : Fun where
  params := []
  result := none
  body :=
    .seq (.expr (.call (.fn "uwan_set_channel") (.cons (.lit .i32 0) (.cons (.lit .i32 868100000) (.nil)))))
    (.seq (.expr (.call (.fn "uwan_set_channel") (.cons (.lit .i32 1) (.cons (.lit .i32 868300000) (.nil)))))
      (.seq (.expr (.call (.fn "uwan_set_channel") (.cons (.lit .i32 2) (.cons (.lit .i32 868500000) (.nil)))))
        (.seq (.expr (.call (.fn "uwan_set_rx1_delay") (.cons (.lit .i32 1) (.nil))))
          (.seq (.expr (.call (.fn "uwan_set_rx1_dr_offset") (.cons (.lit .i32 0) (.nil))))
            (.expr (.call (.fn "uwan_set_rx2") (.cons (.lit .i32 868100000) (.cons (.lit .i32 0) (.nil)))))))))

/-- src/region/eu868.c:49-52 -/
def eu868_handle_cflist : Fun where
  params := [("cflist", none)]
  result := none
  body :=
    .expr (.call (.fn "region_86x_handle_cflist") (.cons (.load (.loc "cflist")) (.cons (.lit .i32 3) (.nil))))

/-- The functions of src/region/eu868.c. -/
def regionEu868Funs : Program := [
  ("eu868_init", eu868_init),
  ("eu868_handle_cflist", eu868_handle_cflist)]

end Uwan.C.Src
