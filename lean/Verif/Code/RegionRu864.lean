import Verif.Code.Sem

/-! Printed by `tools/c2lean.py` from `src/region/ru864.c`; do not edit. -/

namespace Uwan.C.Src

/-- The variables of src/region/ru864.c, as they start. -/
def regionRu864Vars : Objs := [
  ("region_ru864.init", [.fn "ru864_init"]),
  ("region_ru864.handle_cflist", [.fn "ru864_handle_cflist"]),
  ("region_ru864.handle_adr_ch_mask", [.fn "region_86x_handle_adr_ch_mask"])]

/-- src/region/ru864.c:39-46 -/
def ru864_init : Fun where
  params := []
  result := none
  body :=
    .seq (.expr (.call (.fn "uwan_set_channel") (.cons (.lit .i32 0) (.cons (.lit .i32 868900000) (.nil)))))
    (.seq (.expr (.call (.fn "uwan_set_channel") (.cons (.lit .i32 1) (.cons (.lit .i32 869100000) (.nil)))))
      (.seq (.expr (.call (.fn "uwan_set_rx1_delay") (.cons (.lit .i32 1) (.nil))))
        (.seq (.expr (.call (.fn "uwan_set_rx1_dr_offset") (.cons (.lit .i32 0) (.nil))))
          (.expr (.call (.fn "uwan_set_rx2") (.cons (.lit .i32 869100000) (.cons (.lit .i32 0) (.nil))))))))

/-- src/region/ru864.c:48-51 -/
def ru864_handle_cflist : Fun where
  params := [("cflist", none)]
  result := none
  body :=
    .expr (.call (.fn "region_86x_handle_cflist") (.cons (.load (.loc "cflist")) (.cons (.lit .i32 2) (.nil))))

/-- The functions of src/region/ru864.c. -/
def regionRu864Funs : Program := [
  ("ru864_init", ru864_init),
  ("ru864_handle_cflist", ru864_handle_cflist)]

end Uwan.C.Src
