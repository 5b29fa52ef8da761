import Verif.Props.Downlink

/-!
# Rejected, replayed and foreign downlinks (C30, C31, C33, C34)

The code takes over the frame counter and executes the MAC commands of a downlink before it checks the MIC, notes a request for
acknowledgement before it checks the address, and accepts any counter when the last one was 0. So none of these properties
holds as it stands; the theorems named `_partial` say what does hold and the others are counterexamples.
-/

namespace Uwan
open Spec

variable {E : Env} {log : List Item} {it : Item} {s' : St}

/-! ### C30 -/

/-- C30, what holds: a frame with a wrong MIC leaves session, keys, uplink counter, ADR counter and every setting that MAC commands
cannot reach as they were; if it carries no MAC commands, it changes nothing but the downlink counter, the ACK flag and the
SNR memory (the frame buffer holds the frame), and calls no MAC handler. Missing: MAC commands in it are executed, and counter
and ACK flag are taken over (`C30_forged`). -/
theorem C30_partial (h : Hist E (log ++ [it]) s') (l : Bytes) (ho : outcome log it = .packet l) (hj : (config E log).joining = false)
    (hm : (results it.ev).map (·.1) = [.msgMic]) :
    (s'.session.isJoined, s'.session.devAddr, s'.session.fCntUp, s'.session.nwkSKey, s'.session.appSKey) =
      (it.pre.session.isJoined, it.pre.session.devAddr, it.pre.session.fCntUp, it.pre.session.nwkSKey, it.pre.session.appSKey) ∧
    (s'.appKey, s'.devEui, s'.appEui, s'.adr, s'.defaultDr, s'.region, s'.mac.cbs) =
      (it.pre.appKey, it.pre.devEui, it.pre.appEui, it.pre.adr, it.pre.defaultDr, it.pre.region, it.pre.mac.cbs) ∧
    (∀ f, parse l = some f → f.fOpts = [] →
      macCalls it.ev = [] ∧
      ∃ fr d a x, s' = { it.pre with
        phase := .idle, joinState := false, frame := fr, snr := x
        session := { it.pre.session with fCntDown := d, ackRequired := a } }) := by
  obtain ⟨s, m, o, mt, G, s2, ev0, p, ev, R⟩ := h.gotData ho hj
  rw [G.results] at hm
  simp only [List.map_cons, List.map_nil, List.cons.injEq, and_true] at hm
  have hc := R.data
  rw [hm, ← G.bytes] at hc
  obtain ⟨d, a, hfr, hnil⟩ := hc.wrongMic
  rw [G.pre, R.post]
  refine ⟨?_, ?_, ?_⟩
  · have e1 := hfr.isJoined
    have e2 := hfr.devAddr
    have e3 := hfr.fCntUp
    have e4 := hfr.nwkSKey
    have e5 := hfr.appSKey
    simp only [e1, e2, e3, e4, e5]
    rfl
  · have e1 := hfr.appKey
    have e2 := hfr.devEui
    have e3 := hfr.appEui
    have e4 := hfr.adr
    have e5 := hfr.defaultDr
    have e6 := hfr.region
    have e7 := hfr.cbs
    simp only [e1, e2, e3, e4, e5, e6, e7]
    rfl
  · intro f hp hfo
    obtain ⟨m', o', f', h1, h2, h3, -⟩ := h.executed ho hj (.inr hm)
    rw [hp] at h2
    cases h2
    refine ⟨by rw [h3, hfo]; rfl, (rxSt o { s with phase := .idle }).frame, d, a, o.snr, ?_⟩
    rw [hnil f hp hfo]
    rfl

/-- A frame for the demonstration device with a MIC that is wrong under every counter. -/
def badMic (D : Downlink) (cnt : Nat) : Bytes := signed (dlFrame D cnt) ++ [0xde, 0xad, 0xbe, 0xef]

example : ∃ log it s' l f, Hist Tests.xorEnv (log ++ [it]) s' ∧ outcome log it = .packet l ∧
    (config Tests.xorEnv log).joining = false ∧ (results it.ev).map (·.1) = [.msgMic] ∧ parse l = some f ∧ f.fOpts = [] := by
  obtain ⟨h, ho⟩ := Demo.next (op := .event 2 (Tests.rxOf (badMic helloDown 9))) dlFine (by decide +kernel) (by decide +kernel)
  exact ⟨_, _, _, badMic helloDown 9, _, h, by decide +kernel, by decide +kernel, by decide +kernel, rfl, by decide +kernel⟩

/-- Handlers for link-check results only. -/
def linkOps : List Op :=
  [.init .eu868, .macSetHandlers (some { linkCheck := true, getTime := false, timeResult := false, battery := false }),
    .setSession 0x01020304 0 0 Tests.appKey Tests.appKey, .send 2 [1] false 0, .event 4 (Tests.rxOf []), .timer .rx1]

/-- The full claim C30 is false: a confirmed frame with a wrong MIC and the commands LinkCheckAns and RXTimingSetupReq in FOpts calls the
application's link-check handler, sets the receive delay to 5 s, queues an answer, moves the downlink counter and asks for an
acknowledgement. -/
theorem C30_forged : ∃ log it s' l, Hist Tests.xorEnv (log ++ [it]) s' ∧ outcome log it = .packet l ∧
    (config Tests.xorEnv log).joining = false ∧ (results it.ev).map (·.1) = [.msgMic] ∧
    macCalls it.ev = [.linkCheckResult 1 1] ∧
    (it.pre.defaultRx1Delay, it.pre.mac.queue, it.pre.session.fCntDown, it.pre.session.ackRequired) = (1000, [], 0, false) ∧
    (s'.defaultRx1Delay, s'.mac.queue, s'.session.fCntDown, s'.session.ackRequired) = (5000, [8], 9, true) := by
  obtain ⟨h, ho⟩ := Demo.next (ops := linkOps) (op := .event 2 (Tests.rxOf (badMic ⟨true, 0, 0, [2, 1, 1, 8, 5], none⟩ 9)))
    (by decide +kernel) (by decide +kernel) (by decide +kernel)
  exact ⟨_, _, _, badMic ⟨true, 0, 0, [2, 1, 1, 8, 5], none⟩ 9, h, by decide +kernel, by decide +kernel, by decide +kernel,
    by decide +kernel, by decide +kernel, by decide +kernel⟩

/-! ### C31 -/

/-- C31, what holds: the counter of an accepted data downlink exceeds the counter the stack stood at after any earlier operation of
the session (in particular after the previous accepted downlink), if that was not 0 and as long as the counter has not come near 2^32 (each
frame can move it by at most 131071). Missing: a frame with counter 0 can be accepted any number of times
(`C31_zero_replay`); the counter wraps at 2^32. -/
theorem C31_increasing_partial {it1 it2 : Item} {seg : List Item} {l2 : Bytes} (h : Hist E (log ++ [it1] ++ seg ++ [it2]) s')
    (ho2 : outcome (log ++ [it1] ++ seg) it2 = .packet l2) (hj2 : (config E (log ++ [it1] ++ seg)).joining = false)
    (hr2 : (results it2.ev).map (·.1) = [.no]) (hn : ∀ x ∈ seg, newSession x = false)
    (h0 : it1.post.session.fCntDown ≠ 0)
    (hb : it1.post.session.fCntDown.toNat + 131071 * (reports (trace seg) + 1) < 2 ^ 32) :
    it1.post.session.fCntDown.toNat < s'.session.fCntDown.toNat := by
  obtain ⟨s2, h2, -⟩ := h.last
  obtain ⟨s1, h1, -⟩ := Hist.prefix (a := log ++ [it1]) h2
  obtain ⟨-, -, -, hpost, -⟩ := h1.last
  have hd1 : (config E (log ++ [it1])).down = it1.post.session.fCntDown.toNat := by
    show _ = (cfgOf it1.post).down
    rw [hpost, config_hist h1]
  rw [← hd1] at hb ⊢
  have h0' : (config E (log ++ [it1])).down ≠ 0 := by
    rw [hd1]
    intro hz
    exact h0 (BitVec.eq_of_toNat_eq hz)
  obtain ⟨k1, k2, k3, k4⟩ := down_seg h2 hn h0' (by omega)
  obtain ⟨-, f, hp, hd, -⟩ := h.taken ho2 hj2 hr2
  generalize (config E (log ++ [it1] ++ seg)).down = d2 at *
  generalize (config E (log ++ [it1])).down = d1 at *
  generalize reports (trace seg) = n at *
  have hlt : d2 + 131071 < 2 ^ 32 :=
    Nat.lt_of_le_of_lt (Nat.add_le_add_right k4 131071) (by rw [Nat.mul_add, ← Nat.add_assoc] at hb; exact hb)
  have hgt := nextDown_gt hd (fun hz => h0' (Nat.le_zero.mp (hz ▸ k3))) hlt (parse_fCnt hp)
  exact Nat.lt_of_le_of_lt k3 hgt.1

/-- C31, what holds: under the same conditions, when the very same bytes are accepted again then the CMAC of two different messages
under the network key agree in their first four bytes. -/
theorem C31_no_replay_partial {it1 it2 : Item} {seg : List Item} {l : Bytes} (h : Hist E (log ++ [it1] ++ seg ++ [it2]) s')
    (ho1 : outcome log it1 = .packet l) (hj1 : (config E log).joining = false) (hr1 : (results it1.ev).map (·.1) = [.no])
    (ho2 : outcome (log ++ [it1] ++ seg) it2 = .packet l) (hj2 : (config E (log ++ [it1] ++ seg)).joining = false)
    (hr2 : (results it2.ev).map (·.1) = [.no]) (hn : ∀ x ∈ seg, newSession x = false)
    (h0 : it1.post.session.fCntDown ≠ 0)
    (hb : it1.post.session.fCntDown.toNat + 131071 * (reports (trace seg) + 1) < 2 ^ 32) :
    ∃ m1 m2, m1 ≠ m2 ∧ (E.cmac (view E log).nwk m1).toList.take 4 = (E.cmac (view E log).nwk m2).toList.take 4 := by
  have hlt := C31_increasing_partial h ho2 hj2 hr2 hn h0 hb
  obtain ⟨s2, h2, -⟩ := h.last
  obtain ⟨s1, h1, -⟩ := Hist.prefix (a := log ++ [it1]) h2
  obtain ⟨-, -, -, hpost, -⟩ := h1.last
  obtain ⟨hn1, f, hp, -, hm1⟩ := h1.taken ho1 hj1 hr1
  obtain ⟨-, f2, hp2, -, hm2⟩ := h.taken ho2 hj2 hr2
  rw [hp] at hp2
  cases hp2
  have hd1 : (config E (log ++ [it1])).down = it1.post.session.fCntDown.toNat := by
    show _ = (cfgOf it1.post).down
    rw [hpost, config_hist h1]
  have h0' : (config E (log ++ [it1])).down ≠ 0 := by
    rw [hd1]
    intro hz
    exact h0 (BitVec.eq_of_toNat_eq hz)
  obtain ⟨k1, k2, -, -⟩ := down_seg h2 hn h0' (by omega)
  obtain ⟨n1, -, n3, -⟩ := down_next h1 hn1
  rw [k1, k2, n1, n3] at hm2
  rw [← hpost] at hm1
  refine ⟨_, _, ?_, hm1.symm.trans hm2⟩
  intro he
  have := bytesB0_inj (BitVec.isLt _) (BitVec.isLt _) he
  omega

/-- After the first downlink: another uplink, up to its first window. -/
def againOps : List Op := [.send 2 [1] false 0, .event 4 (Tests.rxOf []), .timer .rx1]

-- Counters 1 and 2.
example : ∃ log it1 seg it2 s' l1 l2, Hist Tests.xorEnv (log ++ [it1] ++ seg ++ [it2]) s' ∧ outcome log it1 = .packet l1 ∧
    (config Tests.xorEnv log).joining = false ∧ (results it1.ev).map (·.1) = [.no] ∧
    outcome (log ++ [it1] ++ seg) it2 = .packet l2 ∧ (config Tests.xorEnv (log ++ [it1] ++ seg)).joining = false ∧
    (results it2.ev).map (·.1) = [.no] ∧ (∀ x ∈ seg, newSession x = false) ∧ it1.post.session.fCntDown ≠ 0 ∧
    it1.post.session.fCntDown.toNat + 131071 * (reports (trace seg) + 1) < 2 ^ 32 :=
  ⟨_, _, _, _, _, dlFrame helloDown 1, dlFrame helloDown 2,
    Demo.two (a := dlOps) (b := againOps) (op1 := .event 2 (Tests.rxOf (dlFrame helloDown 1)))
      (op2 := .event 2 (Tests.rxOf (dlFrame helloDown 2))) (by decide +kernel),
    by decide +kernel, by decide +kernel, by decide +kernel, by decide +kernel, by decide +kernel, by decide +kernel,
    by decide +kernel, by decide +kernel, by decide +kernel⟩

/-- The full claim C31 is false: a downlink with counter 0 is accepted twice in one session. -/
theorem C31_zero_replay : ∃ log it1 seg it2 s' l, Hist Tests.xorEnv (log ++ [it1] ++ seg ++ [it2]) s' ∧ outcome log it1 = .packet l ∧
    (config Tests.xorEnv log).joining = false ∧ (results it1.ev).map (·.1) = [.no] ∧
    outcome (log ++ [it1] ++ seg) it2 = .packet l ∧ (config Tests.xorEnv (log ++ [it1] ++ seg)).joining = false ∧
    (results it2.ev).map (·.1) = [.no] ∧ (∀ x ∈ seg, newSession x = false) :=
  ⟨_, _, _, _, _, dlFrame helloDown 0,
    Demo.two (a := dlOps) (b := againOps) (op1 := .event 2 (Tests.rxOf (dlFrame helloDown 0)))
      (op2 := .event 2 (Tests.rxOf (dlFrame helloDown 0))) (by decide +kernel),
    by decide +kernel, by decide +kernel, by decide +kernel, by decide +kernel, by decide +kernel, by decide +kernel,
    by decide +kernel⟩

/-! ### C33 -/

/-- C33, what holds: over any number of exchanges that end in time-outs, CRC errors, or frames rejected for length, header, address or
counter, a genuine downlink in step with the counter before them is still delivered. Missing: frames with a wrong MIC move the
counter (`C33_forged`). -/
theorem C33_partial {seg : List Item} (h : Hist E (log ++ seg ++ [it]) s') (hn : ∀ x ∈ seg, newSession x = false)
    (hr : ∀ x ∈ seg, ∀ r ∈ results x.ev, r.1 ≠ .no ∧ r.1 ≠ .msgMic) (D : Downlink) (cnt : Nat)
    (ho : outcome (log ++ seg) it = .packet (D.build E (view E log).nwk (view E log).app (view E log).addr cnt))
    (hj : (config E (log ++ seg)).joining = false) (hf : D.fOpts.length ≤ 15) (hs : inStep (config E log).down cnt) :
    ∃ m o mt, it.op = .event m o ∧ results it.ev = [(.no, mt, D.shown o.rssi o.snr)] ∧
      mt.toNat = (if D.confirmed then 5 else 3) ∧ s'.session.fCntDown.toNat = cnt := by
  obtain ⟨s1, h1, -⟩ := h.last
  obtain ⟨k1, k2, k3, k4⟩ := kept_seg h1 hn hr
  rw [← k1, ← k2, ← k3] at ho
  rw [← k4] at hs
  exact C28_genuine h D cnt ho hj hf hs

/-- A confirmed downlink for the device with address 7. -/
def foreignDown : Bytes := Downlink.build ⟨true, 0, 0, [], none⟩ Tests.xorEnv Tests.appKey Tests.appKey 7 1

-- A frame for another device comes first.
example : ∃ log it seg s', ∃ D : Downlink, ∃ cnt, Hist Tests.xorEnv (log ++ seg ++ [it]) s' ∧ (∀ x ∈ seg, newSession x = false) ∧
    (∀ x ∈ seg, ∀ r ∈ results x.ev, r.1 ≠ .no ∧ r.1 ≠ .msgMic) ∧ seg.any (fun x => (results x.ev).any fun r => r.1 == .devAddr) ∧
    outcome (log ++ seg) it = .packet (D.build Tests.xorEnv (view Tests.xorEnv log).nwk (view Tests.xorEnv log).app
      (view Tests.xorEnv log).addr cnt) ∧
    (config Tests.xorEnv (log ++ seg)).joining = false ∧ D.fOpts.length ≤ 15 ∧ inStep (config Tests.xorEnv log).down cnt := by
  have h := Demo.two (a := dlOps) (b := againOps) (op1 := .event 2 (Tests.rxOf foreignDown)) (op2 := .event 2 (Tests.rxOf (dlFrame helloDown 1)))
    (by decide +kernel)
  rw [List.append_assoc (Demo.items dlOps)] at h
  exact ⟨_, _, _, _, helloDown, 1, h, by decide +kernel, by decide +kernel, by decide +kernel, by decide +kernel, by decide +kernel,
    by decide +kernel, by unfold inStep; decide +kernel⟩

/-- The full claim C33 is false: after a frame with a wrong MIC and counter 5, the genuine downlink with counter 5 is refused although
the last accepted counter is 0 and 5 is in step with it. -/
theorem C33_forged : ∃ log it1 seg it2 s' l1, Hist Tests.xorEnv (log ++ [it1] ++ seg ++ [it2]) s' ∧
    outcome log it1 = .packet l1 ∧ (results it1.ev).map (·.1) = [.msgMic] ∧ (∀ x ∈ seg, newSession x = false ∧ results x.ev = []) ∧
    inStep (config Tests.xorEnv log).down 5 ∧ (config Tests.xorEnv (log ++ [it1] ++ seg)).joining = false ∧
    outcome (log ++ [it1] ++ seg) it2 = .packet (helloDown.build Tests.xorEnv (view Tests.xorEnv log).nwk (view Tests.xorEnv log).app
      (view Tests.xorEnv log).addr 5) ∧ (results it2.ev).map (·.1) = [.fcnt] :=
  ⟨_, _, _, _, _, badMic helloDown 5,
    Demo.two (a := dlOps) (b := againOps) (op1 := .event 2 (Tests.rxOf (badMic helloDown 5)))
      (op2 := .event 2 (Tests.rxOf (dlFrame helloDown 5))) (by decide +kernel),
    by decide +kernel, by decide +kernel, by decide +kernel, by unfold inStep; decide +kernel, by decide +kernel, by decide +kernel,
    by decide +kernel⟩

/-! ### C34 -/

/-- C34, what holds: a data frame for another address is reported with UWAN_ERR_DEV_ADDR, runs no MAC handler, and leaves the stack's
state as it was but for the content of the frame buffer and the flag asking for an acknowledgement, which a confirmed frame
sets. Missing: that flag (`C34_foreign_ack`). -/
theorem C34_partial (h : Hist E (log ++ [it]) s') (l : Bytes) (ho : outcome log it = .packet l) (hj : (config E log).joining = false)
    (hd : isDataDown l = true) (ha : leNat ((l.drop 1).take 4) ≠ (view E log).addr) :
    (results it.ev).map (·.1) = [.devAddr] ∧ macCalls it.ev = [] ∧
    ∃ fr, s' = { it.pre with
      phase := .idle, joinState := false, frame := fr
      session := { it.pre.session with ackRequired := it.pre.session.ackRequired || leNat (l.take 1) / 32 == 5 } } := by
  obtain ⟨s, m, o, mt, G, s2, ev0, p, ev, R⟩ := h.gotData ho hj
  have hv : verdict E (view E log) (config E log).down l = .devAddr := by
    unfold verdict
    have : 12 ≤ l.length := by
      unfold isDataDown at hd
      simp only [Bool.and_eq_true, decide_eq_true_eq] at hd
      exact hd.1.1
    rw [if_neg (by omega), if_neg (by rw [hd]; decide), if_pos ha]
  have hc := R.data
  rw [← G.bytes] at hc
  obtain ⟨e1, e2⟩ := hc.early (by rw [hv]; decide) (by rw [hv]; decide)
  refine ⟨by rw [G.results, hv]; rfl, ?_, (rxSt o { s with phase := .idle }).frame, ?_⟩
  · rw [R.ev, macCalls_append, macCalls_append, macCalls_append, e2]
    have e0 : macCalls ev0 = [] := by rcases R.pre with h | h <;> rw [h] <;> rfl
    rw [e0]; rfl
  · rw [R.post, e1, G.pre, hd, Bool.true_and]
    rfl

example : ∃ log it s' l, Hist Tests.xorEnv (log ++ [it]) s' ∧ outcome log it = .packet l ∧
    (config Tests.xorEnv log).joining = false ∧ isDataDown l = true ∧ leNat ((l.drop 1).take 4) ≠ (view Tests.xorEnv log).addr := by
  obtain ⟨h, ho⟩ := Demo.next (op := .event 2 (Tests.rxOf foreignDown)) dlFine (by decide +kernel) (by decide +kernel)
  exact ⟨_, _, _, foreignDown, h, by decide +kernel, by decide +kernel, by decide +kernel, by decide +kernel⟩

/-- The full claim C34 is false: after a confirmed downlink for another device, the next uplink acknowledges it (bit 5 of FCtrl, byte 5 of the
frame). -/
theorem C34_foreign_ack : ∃ log it1 it2 s' l, Hist Tests.xorEnv (log ++ [it1] ++ [it2]) s' ∧ outcome log it1 = .packet l ∧
    isDataDown l = true ∧ leNat ((l.drop 1).take 4) ≠ (view Tests.xorEnv log).addr ∧ it1.pre.session.ackRequired = false ∧
    it2.op = .send 2 [1] false 0 ∧ (txs it2.ev).map (fun f => (f.drop 5).take 1) = [[0x20]] := by
  have h := Demo.two (a := dlOps) (b := []) (op1 := .event 2 (Tests.rxOf foreignDown)) (op2 := .send 2 [1] false 0) (by decide +kernel)
  have hd : (Demo.items (dlOps ++ [.event 2 (Tests.rxOf foreignDown)] ++ [])).drop (dlOps.length + 1) = [] := by
    rw [List.drop_eq_nil_iff, Demo.items_length (by decide +kernel)]
    decide
  rw [hd, List.append_nil] at h
  refine ⟨_, _, _, _, foreignDown, h, by decide +kernel, by decide +kernel, by decide +kernel, by decide +kernel, ?_, by decide +kernel⟩
  exact (Demo.next (by decide +kernel) (by decide +kernel) (by decide +kernel)).2

end Uwan
