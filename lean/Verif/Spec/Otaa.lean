import Verif.Spec.Network

/-!
# An attacker on the air while a device joins (specification for C139)

The attacker hears everything and can send anything at any time, but does not have the AppKey. As in `Spec.Attacker` what that means is
said without probabilities: a code that is right under the AppKey was made by the device or the network, for this very message.
-/

namespace Spec
open Uwan (Byte Bytes Block Env)

/-- The messages for which a code under the AppKey has ever been made: the device makes them for join-requests (19 bytes, the first is 0,
section 6.2.4), the network for the join-accepts `sent` (section 6.2.5). -/
inductive JoinMade (sent : List JoinAccept) : Bytes → Prop where
  | request (m : Bytes) (hl : m.length = 19) (h0 : m.head? = some 0) : JoinMade sent m
  | accept (J : JoinAccept) (h : J ∈ sent) : JoinMade sent (0x20 :: J.body)

/-- The packet is not forged: if it deciphers to a message and its right code, then that code was made. -/
def JoinUnforged (E : Env) (appKey : Block) (sent : List JoinAccept) (l : Bytes) : Prop :=
  ∀ msg, l.take 1 ++ joinClear E appKey l = msg ++ (E.cmac appKey msg).toList.take 4 → JoinMade sent msg

/-- A join-accept that can be built: the fields fit. -/
def JoinAccept.Fits (J : JoinAccept) : Prop :=
  J.appNonce < 2 ^ 24 ∧ J.netId < 2 ^ 24 ∧ J.devAddr < 2 ^ 32 ∧ (J.cfList.length = 0 ∨ J.cfList.length = 16)

end Spec
