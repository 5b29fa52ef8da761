import Verif.Code.All
import Verif.Code.Host

/-!
# The state of the model as the memory of the C program

`enc s x` is the content of all global variables of the program printed in `Verif/Code` when the model is in state `s`. `x` holds what the model leaves out: the unused part of
`mac_buf`, the variables of `ext/clock_sync.c`, and the memory of the application passed to the stack by pointer.
-/

namespace Uwan.C

def Sf.num : Sf → Nat
  | .sf6 => 0 | .sf7 => 1 | .sf8 => 2 | .sf9 => 3 | .sf10 => 4 | .sf11 => 5 | .sf12 => 6

def Bw.num : Bw → Nat
  | .bw125 => 0 | .bw250 => 1 | .bw500 => 2

def Cr.num : Cr → Nat
  | .cr45 => 0 | .cr46 => 1 | .cr47 => 2 | .cr48 => 3

def Err.num : Err → Nat
  | .no => 0 | .state => 1 | .datarate => 2 | .channel => 3 | .frequency => 4 | .rxTimeout => 5 | .rxCrc => 6
  | .msgLen => 7 | .msgMhdr => 8 | .msgMic => 9 | .devAddr => 10 | .fcnt => 11

def TimerId.num : TimerId → Nat
  | .rx1 => 0 | .rx2 => 1

def Phase.num : Phase → Nat
  | .notInit => 0 | .idle => 1 | .tx => 2 | .rx1 => 3 | .rx2 => 4

/-- A `bool` variable. -/
def boolVal (b : Bool) : Val := .int .bool (if b then 1 else 0)
def u32Val (x : U32) : Val := .int .u32 x.toNat
/-- An `enum` variable. -/
def enumVal (n : Nat) : Val := .int .u32 n
def i8Val (x : BitVec 8) : Val := .int .i8 x.toInt

/-- A pointer to a global object. -/
def globPtr (x : String) : Val := .ptr ⟨none, x, 0⟩

def regionVal : Option Region → Val
  | none => .null
  | some .eu868 => globPtr "region_eu868"
  | some .ru864 => globPtr "region_ru864"

/-- A callback the application may leave out. -/
def optFn (b : Bool) (f : String) : Val := if b then .fn f else .null

/-- Memory the model does not have. -/
structure Extra where
  /-- `mac_buf` from `mac_buf_pos` on -/
  macTail : Bytes
  /-- the callback table of the application, when the stack does not point to it -/
  cbs : MacCbs
  /-- `clock_sync.c` -/
  clock : Objs
  /-- arguments passed by pointer -/
  args : Objs

/-- The functions of the radio and of the HAL, filled in by the application. -/
def halObjs : Objs := [
  ("radio.set_evt_handler", [.fn "radio.set_evt_handler"]),
  ("radio.rand", [.fn "radio.rand"]),
  ("radio.set_frequency", [.fn "radio.set_frequency"]),
  ("radio.setup", [.fn "radio.setup"]),
  ("radio.set_power", [.fn "radio.set_power"]),
  ("radio.tx", [.fn "radio.tx"]),
  ("radio.rx", [.fn "radio.rx"]),
  ("radio.read_packet", [.fn "radio.read_packet"]),
  ("radio.sleep", [.fn "radio.sleep"]),
  ("hal.start_timer", [.fn "hal.start_timer"]),
  ("hal.stop_timer", [.fn "hal.stop_timer"]),
  ("hal.downlink_callback", [.fn "hal.downlink_callback"]),
  ("hal.crypto_aes_create_context", [.fn "hal.crypto_aes_create_context"]),
  ("hal.crypto_aes_encrypt", [.fn "hal.crypto_aes_encrypt"]),
  ("hal.crypto_aes_delete_context", [.fn "hal.crypto_aes_delete_context"]),
  ("hal.crypto_cmac_create_context", [.fn "hal.crypto_cmac_create_context"]),
  ("hal.crypto_cmac_update", [.fn "hal.crypto_cmac_update"]),
  ("hal.crypto_cmac_finish", [.fn "hal.crypto_cmac_finish"]),
  ("hal.crypto_cmac_delete_context", [.fn "hal.crypto_cmac_delete_context"])]

/-- The callback table of the application. -/
def cbsObjs (c : MacCbs) : Objs := [
  ("cbs.get_battery_level", [optFn c.battery "app.get_battery_level"]),
  ("cbs.link_check_result", [optFn c.linkCheck "app.link_check_result"]),
  ("cbs.get_device_time", [optFn c.getTime "app.get_device_time"]),
  ("cbs.device_time_result", [optFn c.timeResult "app.device_time_result"])]

/-- channels.c -/
def encChan (c : Chan) : Objs := [
  ("uw_channels_max_count", [.int .u8 c.maxCount]),
  ("uw_channels_mask", [byteVal c.mask.b0, byteVal c.mask.b1]),
  ("uw_channels", c.freq.toList.map u32Val)]

/-- adr.c -/
def encAdr (a : Adr) : Objs := [
  ("ack_cnt", [u32Val a.ackCnt]),
  ("ack_limit", [byteVal a.ackLimit]),
  ("ack_delay", [byteVal a.ackDelay]),
  ("adr_is_enabled", [boolVal a.enabled])]

/-- mac.c -/
def encMac (m : Mac) (tail : Bytes) : Objs := [
  ("mac_buf", (m.queue ++ tail).map byteVal),
  ("mac_buf_pos", [.int .u8 m.queue.length]),
  ("mac_save_dev_time", [boolVal m.saveDevTime]),
  ("mac_dev_time", [u32Val m.devTime]),
  ("mac_cbs", [if m.cbs.isSome then globPtr "cbs" else .null]),
  ("mac_commands.handler", [.fn "link_check", .fn "link_adr", .fn "duty_cycle", .fn "rx_param_setup", .fn "dev_status", .fn "new_channel",
    .fn "rx_timing_setup", .fn "tx_param_setup", .fn "di_channel", .fn "device_time"]),
  ("mac_commands.cid", [.int .u8 2, .int .u8 3, .int .u8 4, .int .u8 5, .int .u8 6, .int .u8 7, .int .u8 8, .int .u8 9, .int .u8 10, .int .u8 13]),
  ("mac_commands.pld_size", [.int .u8 2, .int .u8 4, .int .u8 1, .int .u8 4, .int .u8 0, .int .u8 5, .int .u8 1, .int .u8 1, .int .u8 4, .int .u8 5])]

/-- stack.c -/
def encStack (s : St) : Objs := [
  ("uw_dr_table.sf", [.int .u32 6, .int .u32 5, .int .u32 4, .int .u32 3, .int .u32 2, .int .u32 1]),
  ("uw_dr_table.bw", List.replicate 6 (.int .u32 0)),
  ("uw_tx_power_table", [.int .u8 0, .int .u8 2, .int .u8 4, .int .u8 6, .int .u8 8, .int .u8 10, .int .u8 12, .int .u8 14]),
  ("uw_max_app_pld_size", [.int .u8 51, .int .u8 51, .int .u8 51, .int .u8 115, .int .u8 222, .int .u8 222]),
  ("uw_region", [regionVal s.region]),
  ("uw_session.is_joined", [boolVal s.session.isJoined]),
  ("uw_session.ack_required", [boolVal s.session.ackRequired]),
  ("uw_session.dr", [enumVal s.session.dr]),
  ("uw_session.dev_addr", [u32Val s.session.devAddr]),
  ("uw_session.f_cnt_up", [u32Val s.session.fCntUp]),
  ("uw_session.f_cnt_down", [u32Val s.session.fCntDown]),
  ("uw_session.nwk_s_key", s.session.nwkSKey.toList.map byteVal),
  ("uw_session.app_s_key", s.session.appSKey.toList.map byteVal),
  ("uw_radio", [if s.region.isSome then globPtr "radio" else .null]),
  ("uw_stack_hal", [if s.region.isSome then globPtr "hal" else .null]),
  ("pkt_params.sf", [enumVal (Sf.num s.pp.sf)]),
  ("pkt_params.bw", [enumVal (Bw.num s.pp.bw)]),
  ("pkt_params.cr", [enumVal (Cr.num s.pp.cr)]),
  ("pkt_params.preamble_len", [.int .u16 s.pp.preambleLen.toNat]),
  ("pkt_params.crc_on", [boolVal s.pp.crcOn]),
  ("pkt_params.inverted_iq", [boolVal s.pp.invertedIq]),
  ("pkt_params.implicit_header", [boolVal s.pp.implicitHeader]),
  ("uw_frame", s.frame.map byteVal),
  ("uw_state", [enumVal (Phase.num s.phase)]),
  ("uw_rx1_delay", [u32Val s.rx1Delay]),
  ("uw_rx1_offset", [byteVal s.rx1Offset]),
  ("uw_rx2_delay", [u32Val s.rx2Delay]),
  ("uw_is_join_state", [boolVal s.joinState]),
  ("uw_dev_nonce", [u32Val s.devNonce]),
  ("uw_dev_eui", s.devEui.toList.map byteVal),
  ("uw_app_eui", s.appEui.toList.map byteVal),
  ("uw_app_key", s.appKey.toList.map byteVal),
  ("default_join_delay", [.int .u32 5000]),
  ("default_rx1_delay", [u32Val s.defaultRx1Delay]),
  ("default_dr", [enumVal s.defaultDr]),
  ("default_nb_trans", [byteVal s.defaultNbTrans]),
  ("uw_nb_trans", [byteVal s.nbTrans]),
  ("default_tx_power", [byteVal s.defaultTxPower]),
  ("uw_tx_power", [byteVal s.txPower]),
  ("default_max_eirp", [i8Val s.maxEirp]),
  ("current_snr", [i8Val s.snr]),
  ("uw_rx2_frequency", [u32Val s.rx2Freq]),
  ("uw_rx2_dr", [enumVal s.rx2Dr])]

/-- All global memory. -/
def enc (s : St) (x : Extra) : Objs :=
  encChan s.chan ++ Src.regionEu868Vars ++ Src.regionRu864Vars ++ encAdr s.adr ++ encMac s.mac x.macTail ++ encStack s ++
    cbsObjs (s.mac.cbs.getD x.cbs) ++ halObjs ++ x.args ++ x.clock

/-- Power-on. -/
def Extra.boot : Extra := ⟨List.replicate 15 0, ⟨false, false, false, false⟩, Src.clockSyncVars, []⟩

/-- The memory of the model at power-on is what the initialisers in the sources say. -/
theorem enc_boot : enc .boot .boot = Src.utilsVars ++ Src.channelsVars ++ Src.regionCommonVars ++ Src.regionEu868Vars ++ Src.regionRu864Vars ++ Src.adrVars ++
    Src.macVars ++ Src.stackVars ++ cbsObjs Extra.boot.cbs ++ halObjs ++ Src.clockSyncVars := by
  decide +kernel

/-- The call that performs an operation: memory prepared by the application, function, arguments. -/
def Op.args : Op → Objs
  | .setOtaaKeys d a k => [("arg1", d.toList.map byteVal), ("arg2", a.toList.map byteVal), ("arg3", k.toList.map byteVal)]
  | .setSession _ _ _ n a => [("arg1", n.toList.map byteVal), ("arg2", a.toList.map byteVal)]
  | .send _ pld _ _ => [("arg1", pld.map byteVal)]
  | _ => []

def Op.fn : Op → String
  | .init _ => "uwan_init"
  | .setOtaaKeys .. => "uwan_set_otaa_keys"
  | .setSession .. => "uwan_set_session"
  | .enableChannel .. => "uwan_enable_channel"
  | .setChannel .. => "uwan_set_channel"
  | .setRx2 .. => "uwan_set_rx2"
  | .join .. => "uwan_join"
  | .send .. => "uwan_send_frame"
  | .timer _ => "uwan_timer_callback"
  | .event .. => "evt_handler"
  | .setDr _ => "uwan_set_dr"
  | .setNbTrans _ => "uwan_set_nb_trans"
  | .setMaxEirp _ => "uwan_set_max_eirp"
  | .setTxPower _ => "uwan_set_tx_power"
  | .setRx1DrOffset _ => "uwan_set_rx1_dr_offset"
  | .setRx1Delay _ => "uwan_set_rx1_delay"
  | .adrEnable _ => "uwan_adr_enable"
  | .adrSetupAck .. => "uwan_adr_setup_ack"
  | .macSetHandlers _ => "uwan_mac_set_handlers"
  | .linkCheckReq => "uwan_mac_link_check_req"
  | .deviceTimeReq => "uwan_mac_device_time_req"
  | .isJoined => "uwan_is_joined"
  | .getMaxPayload => "uwan_get_max_payload_size"

def Op.vals : Op → List Val
  | .init r => [globPtr "radio", globPtr "hal", regionVal (some r)]
  | .setOtaaKeys .. => [globPtr "arg1", globPtr "arg2", globPtr "arg3"]
  | .setSession a u d _ _ => [u32Val a, u32Val u, u32Val d, globPtr "arg1", globPtr "arg2"]
  | .enableChannel i en => [byteVal i, boolVal en]
  | .setChannel i f => [byteVal i, u32Val f]
  | .setRx2 f dr => [u32Val f, enumVal dr]
  | .join .. => []
  | .send p l c _ => [byteVal p, globPtr "arg1", .int .u8 l.length, boolVal c]
  | .timer i => [enumVal (TimerId.num i)]
  | .event m _ => [byteVal m]
  | .setDr dr => [enumVal dr]
  | .setNbTrans n => [byteVal n]
  | .setMaxEirp e => [i8Val e]
  | .setTxPower p => [byteVal p]
  | .setRx1DrOffset o => [byteVal o]
  | .setRx1Delay d => [byteVal d]
  | .adrEnable en => [boolVal en]
  | .adrSetupAck l d => [byteVal l, byteVal d]
  | .macSetHandlers c => [if c.isSome then globPtr "cbs" else .null]
  | _ => []

/-- What the call returns. -/
def Ret.val : Ret → Val
  | .unit => .null
  | .err e => enumVal (Err.num e)
  | .bool b => boolVal b
  | .nat n => .int .u8 n

/-- The environment's answers: random numbers. -/
def Op.rands : Op → List Nat
  | .join a b => [a, b]
  | .send _ _ _ a => [a]
  | _ => []

end Uwan.C
