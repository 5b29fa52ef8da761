import Verif.Spec.Network

/-!
# An attacker on the air (specification for C135, C136)

The attacker hears everything, holds back, reorders, repeats and changes frames, sends a device's own frames back to it, and makes up
frames; but does not have the network session key. What that means for the integrity code is said without probabilities: a code found
right for some cipher input was made for this input by one of the two ends.
-/

namespace Spec
open Uwan (Byte Bytes Block Env Item txs)

/-- Section 4.4: what the integrity code of a data frame is computed over. -/
def micInput (dir addr cnt : Nat) (msg : Bytes) : Bytes := bytesB0 dir addr cnt msg.length ++ msg

/-- An uplink of the device. -/
structure Uplink where
  cnt : Nat
  frames : List Bytes
  msg : Message
  deriving DecidableEq

/-- The accepted calls of `uwan_send_frame` in `seg`, done after `log`: the first has counter `cnt`; what was transmitted and what it was
meant to carry. -/
def uplinks (E : Env) : List Item → Nat → List Item → List Uplink
  | _, _, [] => []
  | log, cnt, it :: seg =>
    match uplinkOf E log it with
    | some m => ⟨cnt, txs it.ev, m⟩ :: uplinks E (log ++ [it]) (cnt + 1) seg
    | none => uplinks E (log ++ [it]) cnt seg

/-- The cipher inputs for which device or server has made an integrity code: uplinks `ups` and downlinks `sent` of this part of the
session, and earlier ones, uplinks with counters below `n.next` and downlinks with counters up to `down`. -/
inductive Made (E : Env) (n : Server) (down : Nat) (ups : List Uplink) (sent : List (Nat × Downlink)) : Bytes → Prop where
  | oldUp (c : Nat) (m : Bytes) (h : c < n.next) (hc : c < 2 ^ 32) : Made E n down ups sent (micInput 0 n.addr c m)
  | up (u : Uplink) (l : Bytes) (hu : u ∈ ups) (hl : l ∈ u.frames) : Made E n down ups sent (micInput 0 n.addr u.cnt (signed l))
  | oldDown (c : Nat) (m : Bytes) (h0 : 0 < c) (h : c ≤ down) (hc : c < 2 ^ 32) : Made E n down ups sent (micInput 1 n.addr c m)
  | down (c : Nat) (D : Downlink) (h : (c, D) ∈ sent) :
      Made E n down ups sent (micInput 1 n.addr c (signed (D.build E n.nwk n.app n.addr c)))

/-- The frame is not forged: if its integrity code is right for some direction and counter, one of the ends has made it for them. -/
def Unforged (E : Env) (n : Server) (down : Nat) (ups : List Uplink) (sent : List (Nat × Downlink)) (l : Bytes) : Prop :=
  ∀ dir cnt, dir ≤ 1 → cnt < 2 ^ 32 → l.drop (l.length - 4) = dataMic E n.nwk dir n.addr cnt (signed l) →
    Made E n down ups sent (micInput dir n.addr cnt (signed l))

end Spec
