import Verif.Model.Channels

/-! # `src/region/*.c` and the setters of `src/stack.c` used by the regions -/

namespace Uwan

/-- src/stack.c:564-576 `uwan_set_rx2`. -/
def setRx2 (s : St) (f : U32) (dr : Nat) : Err × St :=
  if !isValidDr dr then (.datarate, s)
  else if !isValidFrequency f then (.frequency, s)
  else (.no, { s with rx2Freq := f, rx2Dr := dr })

/-- src/stack.c:759-767 `uwan_set_rx1_dr_offset`. -/
def setRx1DrOffset (s : St) (off : Byte) : Bool × St :=
  if isValidDr off.toNat then (true, { s with rx1Offset := off }) else (false, s)

/-- src/stack.c:769-777 `uwan_set_rx1_delay`. -/
def setRx1Delay (s : St) (delay : Byte) : Bool × St :=
  if 1 ≤ delay.toNat ∧ delay.toNat ≤ 15 then
    (true, { s with defaultRx1Delay := BitVec.ofNat 32 (delay.toNat * 1000) })
  else (false, s)

/-- `uwan_set_channel` on the whole state. -/
def St.setChan (s : St) (index : Nat) (f : U32) : St := { s with chan := (setChannel s.chan index f).2 }

/-- src/region/eu868.c:39-47 `eu868_init`. -/
def eu868Init (s : St) : St :=
  let s := s.setChan 0 868100000
  let s := s.setChan 1 868300000
  let s := s.setChan 2 868500000
  let s := (setRx1Delay s 1).2
  let s := (setRx1DrOffset s 0).2
  (setRx2 s 868100000 0).2

/-- src/region/ru864.c:39-46 `ru864_init`. -/
def ru864Init (s : St) : St :=
  let s := s.setChan 0 868900000
  let s := s.setChan 1 869100000
  let s := (setRx1Delay s 1).2
  let s := (setRx1DrOffset s 0).2
  (setRx2 s 869100000 0).2

/-- `uw_region->init` (src/region/eu868.c:34, src/region/ru864.c:34). -/
def Region.init : Region → St → St
  | .eu868 => eu868Init
  | .ru864 => ru864Init

/-- `CFLIST_CH_FIRST` (src/region/eu868.c:28, src/region/ru864.c:28). -/
def Region.cflistFirst : Region → Nat
  | .eu868 => 3
  | .ru864 => 2

/-- src/region/common.c:40-46, the loop over the five channel entries; `idx` counts up, `l` is the moving
pointer `cflist`. -/
def cflistLoop (first : Nat) : Nat → Nat → Bytes → Chan → Except UB Chan
  | 0, _, _, c => .ok c
  | n + 1, idx, a :: b :: d :: l, c =>
    let f := or24 a b d
    let c :=
      if f = 0 then (enableChannel c ((idx + first) % 256) false).2
      else (setChannel c ((idx + first) % 256) (f * 100)).2
    cflistLoop first n (idx + 1) l c
  | _ + 1, _, _, _ => .error .oob

/-- src/region/common.c:33-47 `region_86x_handle_cflist`. -/
def handleCflist (r : Region) (l : Bytes) (c : Chan) : Except UB Chan := do
  let type ← orOob l[15]?
  if type ≠ 0 then .ok c else cflistLoop r.cflistFirst 5 0 l c

/-- src/region/common.c:54-66 with `dry_run`: every channel to be enabled is defined. -/
def chMaskOk (c : Chan) (chMask : U16) : Bool :=
  (List.range 16).all (fun i => !(chMask.getLsbD i && !channelIsExist c i))

/-- src/region/common.c:54-66 without `dry_run`. -/
def applyChMask (c : Chan) (chMask : U16) : Chan :=
  (List.range 16).foldl (fun c i => (enableChannel c i (chMask.getLsbD i)).2) c

/-- src/region/common.c:49-76 `region_86x_handle_adr_ch_mask`: result and new channel table. -/
def handleAdrChMask (c : Chan) (chMask : U16) (cntl : Nat) (dryRun : Bool) : Bool × Chan :=
  if cntl = 0 then
    if dryRun then (chMaskOk c chMask, c) else (true, applyChMask c chMask)
  else if cntl = 6 then
    (true, if dryRun then c else channelsEnableAll c)
  else (false, c)

end Uwan
