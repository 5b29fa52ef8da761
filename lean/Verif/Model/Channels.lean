import Verif.Model.Types

/-! # `src/channels.c` and the validity predicates of `src/stack.c` it uses -/

namespace Uwan

/-- src/stack.c:779-782 `is_valid_dr`.  The C parameter is `uint8_t`, so an `enum uwan_dr` argument is
reduced modulo 256 first. -/
def isValidDr (dr : Nat) : Bool := dr % 256 < 6

/-- src/stack.c:784-787 `is_valid_frequency`. -/
def isValidFrequency (f : U32) : Bool := 860000000 ≤ f.toNat && f.toNat ≤ 870000000

/-- src/stack.c:804-808 `is_valid_tx_power`. -/
def isValidTxPower (p : Byte) : Bool := p.toNat < 8

/-- `x[k]` for the two-byte mask array (src/channels.c:37); callers have `k < 2`. -/
def Mask.byte (m : Mask) (k : Nat) : Byte := if k = 0 then m.b0 else m.b1

/-- Assignment to `x[k]` of the two-byte mask array; callers have `k < 2`. -/
def Mask.setByte (m : Mask) (k : Nat) (v : Byte) : Mask :=
  if k = 0 then { m with b0 := v } else { m with b1 := v }

/-- src/utils.h:37 `BIT_IS_SET`. -/
def Mask.isSet (m : Mask) (i : Nat) : Bool := (m.byte (i / 8) &&& (1#8 <<< (i % 8))) != 0

/-- src/utils.h:38 `BIT_SET`. -/
def Mask.set (m : Mask) (i : Nat) : Mask := m.setByte (i / 8) (m.byte (i / 8) ||| (1#8 <<< (i % 8)))

/-- src/utils.h:39 `BIT_CLEAR`. -/
def Mask.clear (m : Mask) (i : Nat) : Mask :=
  m.setByte (i / 8) (m.byte (i / 8) &&& ~~~(1#8 <<< (i % 8)))

/-- `uw_channels[i]`, callers have `i < 16`. -/
def Chan.freqAt (c : Chan) (i : Nat) : U32 := c.freq[i]?.getD 0

/-- src/channels.c:40-44 `channels_init`. `uw_channels` is not cleared. -/
def channelsInit (c : Chan) : Chan := { c with mask := ⟨0, 0⟩, maxCount := 0 }

/-- src/channels.c:56-60, the search loop of `channels_get_next`. `ch` is an 8-bit variable, so more than 256
iterations mean the loop never ends. An index past the arrays is undefined behaviour. -/
def getNextLoop (c : Chan) (start : Nat) : Nat → Nat → Except UB U32
  | 0, _ => .error .diverge
  | fuel + 1, ch =>
    if 16 ≤ ch then .error .oob
    else if c.mask.isSet ch then .ok (c.freqAt ch)
    else
      let ch' := (ch + 1) % c.maxCount % 256
      if start ≠ ch' then getNextLoop c start fuel ch' else .ok 0

/-- src/channels.c:46-63 `channels_get_next`, with src/utils.c:36-39 `utils_get_random`: `rnd` is the value
returned by `rand()`. -/
def channelsGetNext (c : Chan) (rnd : Nat) : Except UB U32 :=
  if c.maxCount = 0 then .ok 0
  else
    let start := rnd % c.maxCount % 256
    getNextLoop c start 256 start

/-- src/channels.c:75-81 `channel_is_exist`. -/
def channelIsExist (c : Chan) (index : Nat) : Bool :=
  if 16 ≤ index then false else c.freqAt index != 0

/-- src/channels.c:92-93, the enabling part shared by `uwan_enable_channel` and `channels_enable_all`. -/
def Chan.turnOn (c : Chan) (i : Nat) : Chan :=
  { c with maxCount := if c.maxCount < i + 1 then i + 1 else c.maxCount, mask := c.mask.set i }

/-- src/channels.c:98-101, the loop that lowers the high-water mark. -/
def lowerMax (m : Mask) (index : Nat) (cur : Nat) : Nat :=
  (List.range index).foldl (fun mc i => if m.isSet i then i + 1 else mc) cur

/-- src/channels.c:83-106 `uwan_enable_channel`. -/
def enableChannel (c : Chan) (index : Nat) (enable : Bool) : Err × Chan :=
  if 16 ≤ index then (.channel, c)
  else if enable then
    if c.freqAt index = 0 then (.channel, c) else (.no, c.turnOn index)
  else
    let m := c.mask.clear index
    let mc := if c.maxCount = index + 1 then lowerMax m index c.maxCount else c.maxCount
    (.no, { c with mask := m, maxCount := mc })

/-- src/channels.c:65-73 `channels_enable_all`. -/
def channelsEnableAll (c : Chan) : Chan :=
  (List.range 16).foldl (fun c i => if c.freqAt i ≠ 0 then c.turnOn i else c) c

/-- src/channels.c:108-120 `uwan_set_channel`. -/
def setChannel (c : Chan) (index : Nat) (f : U32) : Err × Chan :=
  if 16 ≤ index then (.channel, c)
  else if !isValidFrequency f then (.frequency, c)
  else
    let c := { c with freq := c.freq.setIfInBounds index f }
    (.no, (enableChannel c index true).2)

end Uwan
