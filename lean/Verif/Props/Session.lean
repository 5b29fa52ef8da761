import Verif.Props.Join
import Verif.Props.Mac

/-!
# What a new session starts with, and what an acknowledgement tells (C111, C112)
-/

namespace Uwan
open Spec

variable {E : Env} {log : List Item} {it : Item} {s' : St}

/-! ### C111 -/

/-- C111, the part that holds: an accepted join-accept brings back the application's default data rate, clears the downlink counter and
the pending acknowledgement and sets window delay, RX1 offset and RX2 data rate from the message. Missing is everything else the
previous network may have changed: it stays as it was (last lines), see `C111_leftovers`. -/
theorem C111_join_partial (h : Hist E (log ++ [it]) s') (dec : Block → Block → Block) (hdec : ∀ k b, E.aes k (dec k b) = b)
    (J : JoinAccept) (h1 : J.appNonce < 2 ^ 24) (h2 : J.netId < 2 ^ 24) (h3 : J.devAddr < 2 ^ 32)
    (hcf : J.cfList.length = 0 ∨ J.cfList.length = 16) (hj : (config E log).joining = true)
    (ho : outcome log it = .packet (J.build E dec (view E log).appKey)) :
    s'.session.dr = it.pre.defaultDr ∧ s'.session.fCntDown = 0 ∧ s'.session.ackRequired = false ∧
    s'.defaultRx1Delay.toNat = 1000 * max 1 (J.rxDelay.toNat % 16) ∧
    (J.dlSettings.toNat / 16 % 8 < 6 → s'.rx1Offset.toNat = J.dlSettings.toNat / 16 % 8) ∧
    (J.dlSettings.toNat % 16 < 6 → s'.rx2Dr = J.dlSettings.toNat % 16) ∧
    s'.txPower = it.pre.txPower ∧ s'.nbTrans = it.pre.nbTrans ∧ s'.maxEirp = it.pre.maxEirp ∧ s'.rx2Freq = it.pre.rx2Freq ∧
    s'.mac.queue = it.pre.mac.queue ∧ s'.adr = it.pre.adr ∧
    (J.cfList = [] → chFreq s'.chan = chFreq it.pre.chan ∧ chOn s'.chan = chOn it.pre.chan) := by
  obtain ⟨-, e1, e2, e3, e4, e5⟩ := C39_session h dec hdec J h1 h2 h3 hcf hj ho
  obtain ⟨fr, on, key, -⟩ := accepted_cfg h dec hdec J h1 h2 h3 hcf hj ho
  obtain ⟨s, mask, o, mt, p, G, -⟩ := h.gotJoin ho hj
  rw [show config E log = cfgOf it.pre by rw [G.pre]; exact (config_hist G.hist).symm] at key
  refine ⟨by rw [e1], by rw [e1], by rw [e1], e4, fun hk => by rw [e2, if_pos hk], fun hk => by rw [e3, if_pos hk], ?_, ?_, ?_, ?_, ?_,
    ?_, e5⟩
  · exact BitVec.eq_of_toNat_eq (congrArg Cfg.pow key)
  · exact BitVec.eq_of_toNat_eq (congrArg Cfg.nb key)
  · have := congrArg Cfg.eirp key
    exact BitVec.eq_of_toInt_eq this
  · exact BitVec.eq_of_toNat_eq (congrArg Cfg.rx2Freq key)
  · exact congrArg Cfg.queue key
  · have a1 : s'.adr.enabled = it.pre.adr.enabled := congrArg Cfg.adr key
    have a2 : s'.adr.ackLimit = it.pre.adr.ackLimit := BitVec.eq_of_toNat_eq (congrArg Cfg.limit key)
    have a3 : s'.adr.ackDelay = it.pre.adr.ackDelay := BitVec.eq_of_toNat_eq (congrArg Cfg.adrDelay key)
    have a4 : s'.adr.ackCnt = it.pre.adr.ackCnt := BitVec.eq_of_toNat_eq (congrArg Cfg.cnt key)
    generalize s'.adr = x at *
    generalize it.pre.adr = y at *
    cases x; cases y
    simp only at a1 a2 a3 a4
    rw [a1, a2, a3, a4]

/-- A device that had a session in which the network lowered its power (LinkADRReq: DR3, power 5, channel 0, 3 repetitions), and that
then joins anew. -/
def rejoinOps : List Op :=
  [.init .eu868, .setOtaaKeys Tests.devEui Tests.appEui Tests.appKey, .setSession 0x01020304 0 0 Tests.appKey Tests.appKey,
    .send 2 [1] false 0, .event 4 (Tests.rxOf []), .timer .rx1, .event 2 (Tests.rxOf (cmdFrame [0x03, 0x35, 0x01, 0x00, 0x03])),
    .join 0 0x4321, .event 4 (Tests.rxOf []), .timer .rx1]
/-- The answer of the network. -/
def rejoinAccept : Op := .event 2 (Tests.rxOf (demoAccept.build Tests.xorEnv Tests.xorEnv.aes Tests.appKey))

example : ∃ (log : List Item) (it : Item) (s' : St) (dec : Block → Block → Block) (J : JoinAccept),
    Hist Tests.xorEnv (log ++ [it]) s' ∧ (∀ k b, Tests.xorEnv.aes k (dec k b) = b) ∧ J.appNonce < 2 ^ 24 ∧ J.netId < 2 ^ 24 ∧
    J.devAddr < 2 ^ 32 ∧ J.cfList.length = 0 ∧ (config Tests.xorEnv log).joining = true ∧
    outcome log it = .packet (J.build Tests.xorEnv dec (view Tests.xorEnv log).appKey) ∧
    it.pre.session.dr = 3 ∧ s'.session.dr = 0 ∧ s'.txPower = 5 := by
  have hx : ∀ k b : Block, Tests.xorEnv.aes k (Tests.xorEnv.aes k b) = b := by
    intro k b
    show Vector.zipWith _ (Vector.zipWith _ b k) k = b
    ext i hi
    simp [BitVec.xor_assoc]
  have h := Demo.next (ops := rejoinOps) (op := rejoinAccept) (by decide +kernel) trivial (by decide +kernel)
  refine ⟨_, _, _, Tests.xorEnv.aes, demoAccept, h.1, hx, by decide, by decide, by decide, rfl, by decide +kernel, ?_, by decide +kernel,
    by decide +kernel, by decide +kernel⟩
  unfold outcome
  rw [h.2]
  decide +kernel

/-- C111 does not hold of the code: the first uplink of the new session goes out with the power the previous network asked for (5, 10 dB
below the maximum; the application's default is 0) and carries the answer to the previous network's LinkADRReq; and the stack still has
only the channel enabled that the previous network left it. -/
theorem C111_leftovers : ∃ (log : List Item) (it : Item) (s' : St), Hist Tests.xorEnv (log ++ [it]) s' ∧
    (log.map (·.op)).getLast? = some rejoinAccept ∧ (log.getLast?.map fun x => (results x.ev).map (·.1)) = some [.no] ∧
    it.op = .send 2 [1] false 0 ∧ it.ret = .err .no ∧
    (config Tests.xorEnv log).defPow = 0 ∧ (it.ev.filter fun | .setPower _ => true | _ => false) = [.setPower 4] ∧
    (txs it.ev).map (fun l => (parse l).map (·.fOpts)) = [some [3, 7]] ∧
    (List.range 16).filter (chOn s'.chan) = [0] := by
  have hf : Demo.fine (rejoinOps ++ [rejoinAccept]) = true := by decide +kernel
  obtain ⟨h1, h2⟩ := Demo.next (op := .send 2 [1] false 0) hf (by decide) (by decide +kernel)
  refine ⟨_, _, _, h1, ?_, by decide +kernel, h2, by decide +kernel, by decide +kernel, by decide +kernel, by decide +kernel,
    by decide +kernel⟩
  rw [Demo.items_map hf]; rfl

/-! ### C112 -/

/-- C112, the part that holds: an exchange that ends with an error code received no acknowledgement, as none of this session's downlinks
in step (with or without the ACK bit) is reported that way. Missing is the other direction, see `C112_lost`. -/
theorem C112_error_partial (h : Hist E (log ++ [it]) s') (hj : (config E log).joining = false)
    (he : ∀ r ∈ results it.ev, r.1 ≠ .no) (D : Downlink) (cnt : Nat) (hf : D.fOpts.length ≤ 15)
    (hs : inStep (config E log).down cnt) :
    outcome log it ≠ .packet (D.build E (view E log).nwk (view E log).app (view E log).addr cnt) := by
  intro ho
  obtain ⟨m, o, mt, -, hr, -⟩ := C28_genuine h D cnt ho hj hf hs
  exact he _ (by rw [hr]; exact List.mem_singleton.mpr rfl) rfl

-- A confirmed uplink without an answer.
example : ∃ (log : List Item) (it : Item) (s' : St), Hist Tests.xorEnv (log ++ [it]) s' ∧ (config Tests.xorEnv log).joining = false ∧
    (results it.ev).map (·.1) = [.rxTimeout] ∧ inStep (config Tests.xorEnv log).down 1 := by
  obtain ⟨h, -⟩ := Demo.next (ops := [.init .eu868, .setSession 0x01020304 0 0 Tests.appKey Tests.appKey, .send 2 [1] true 0,
    .event 4 (Tests.rxOf []), .timer .rx1, .event 1 (Tests.rxOf []), .timer .rx2]) (op := .event 1 (Tests.rxOf [])) (by decide +kernel) (by decide)
    (by decide +kernel)
  exact ⟨_, _, _, h, by decide +kernel, by decide +kernel, by unfold inStep; decide +kernel⟩

/-- C112 does not hold of the code: whether the network set the ACK bit (or FPending; `hi` are the upper four bits of FCtrl) of a downlink
makes no difference to what the application is told. -/
theorem C112_lost {a b : Item} {s1 s2 : St} (h1 : Hist E (log ++ [a]) s1) (h2 : Hist E (log ++ [b]) s2) (m : Byte) (o o' : Oracle)
    (ha : a.op = .event m o) (hb : b.op = .event m o') (hsig : o'.rssi = o.rssi ∧ o'.snr = o.snr) (D : Downlink) (hi cnt : Nat)
    (ho : outcome log a = .packet (D.build E (view E log).nwk (view E log).app (view E log).addr cnt))
    (ho' : outcome log b = .packet (Downlink.build { D with hi := hi } E (view E log).nwk (view E log).app (view E log).addr cnt))
    (hj : (config E log).joining = false) (hf : D.fOpts.length ≤ 15) (hs : inStep (config E log).down cnt) :
    results a.ev = results b.ev ∧ (results a.ev).map (·.1) = [.no] := by
  obtain ⟨m1, o1, mt1, e1, r1, t1, -⟩ := C28_genuine h1 D cnt ho hj hf hs
  obtain ⟨m2, o2, mt2, e2, r2, t2, -⟩ := C28_genuine h2 { D with hi := hi } cnt ho' hj hf hs
  rw [ha] at e1
  rw [hb] at e2
  cases e1
  cases e2
  have : mt1 = mt2 := BitVec.eq_of_toNat_eq (t1.trans t2.symm)
  rw [r1, r2, this, hsig.1, hsig.2]
  exact ⟨rfl, rfl⟩

-- The answer to a confirmed uplink, once with and once without ACK.
example : ∃ (log : List Item) (a b : Item) (s1 s2 : St) (m : Byte) (o o' : Oracle) (D : Downlink),
    Hist Tests.xorEnv (log ++ [a]) s1 ∧ Hist Tests.xorEnv (log ++ [b]) s2 ∧ a.op = .event m o ∧ b.op = .event m o' ∧
    o'.rssi = o.rssi ∧ o'.snr = o.snr ∧ D.hi = 2 ∧
    outcome log a = .packet (D.build Tests.xorEnv (view Tests.xorEnv log).nwk (view Tests.xorEnv log).app (view Tests.xorEnv log).addr 1) ∧
    outcome log b = .packet (Downlink.build { D with hi := 0 } Tests.xorEnv (view Tests.xorEnv log).nwk (view Tests.xorEnv log).app
      (view Tests.xorEnv log).addr 1) ∧
    (config Tests.xorEnv log).joining = false ∧ D.fOpts.length ≤ 15 ∧ inStep (config Tests.xorEnv log).down 1 := by
  have hf : Demo.fine [.init .eu868, .setSession 0x01020304 0 0 Tests.appKey Tests.appKey, .send 2 [1] true 0, .event 4 (Tests.rxOf []),
    .timer .rx1] = true := by decide +kernel
  obtain ⟨h1, e1⟩ := Demo.next (op := .event 2 (Tests.rxOf (dlFrame { helloDown with hi := 2 } 1))) hf (by decide +kernel) (by decide +kernel)
  obtain ⟨h2, e2⟩ := Demo.next (op := .event 2 (Tests.rxOf (dlFrame helloDown 1))) hf (by decide +kernel) (by decide +kernel)
  exact ⟨_, _, _, _, _, _, _, _, { helloDown with hi := 2 }, h1, h2, e1, e2, rfl, rfl, rfl, by decide +kernel, by decide +kernel,
    by decide +kernel, by decide, by unfold inStep; decide +kernel⟩

end Uwan
