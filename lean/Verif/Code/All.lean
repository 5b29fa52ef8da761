import Verif.Code.Utils
import Verif.Code.Channels
import Verif.Code.RegionCommon
import Verif.Code.RegionEu868
import Verif.Code.RegionRu864
import Verif.Code.Adr
import Verif.Code.Mac
import Verif.Code.Stack
import Verif.Code.ClockSync

/-! Printed by `tools/c2lean.py`; do not edit. -/

namespace Uwan.C.Src

/-- All variables of the stack, as they start. -/
def vars : Objs := utilsVars ++ channelsVars ++ regionCommonVars ++ regionEu868Vars ++ regionRu864Vars ++ adrVars ++ macVars ++ stackVars ++ clockSyncVars

/-- All functions of the stack. -/
def prog : Program := utilsFuns ++ channelsFuns ++ regionCommonFuns ++ regionEu868Funs ++ regionRu864Funs ++ adrFuns ++ macFuns ++ stackFuns ++ clockSyncFuns

end Uwan.C.Src
