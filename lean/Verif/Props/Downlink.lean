import Verif.Lemmas.Received
import Verif.Tests.Demo

/-!
# Downlinks (C27-C35, C37)

`outcome log it` says what arrived in a receive window, `results it.ev` what the application's downlink callback was told.
`(config E log).joining = false` says that no accepted `uwan_join` is waiting for its result, so that a packet is treated as a data
downlink. `(config E log).down` is the downlink counter the stack has last taken over.
-/

namespace Uwan
open Spec

variable {E : Env} {log : List Item} {it : Item} {s' : St}

/-! ### C27 -/

/-- C27: the application is told exactly one result per exchange: time-out and CRC error without data, and for a packet the verdict
of the documented check list. -/
theorem C27_verdict (h : Hist E (log ++ [it]) s') :
    match outcome log it with
    | .none => results it.ev = []
    | .timeout => results it.ev = [(.rxTimeout, 0, ⟨none, 0, 0, 0⟩)]
    | .crc => results it.ev = [(.rxCrc, 0, ⟨none, 0, 0, 0⟩)]
    | .packet l => (config E log).joining = false → ∃ mt p,
        results it.ev = [(verdict E (view E log) (config E log).down l, mt, p)] := by
  have hout := h.end_of
  cases ho : outcome log it with
  | none => rw [ho] at hout; exact hout
  | timeout => rw [ho] at hout; exact hout.1
  | crc => rw [ho] at hout; exact hout.1
  | packet l =>
    intro hj
    obtain ⟨s, m, o, mt, G, -⟩ := h.gotData ho hj
    exact ⟨mt, _, G.results⟩

/-- The check list, spelled out for acceptance: every condition holds. -/
theorem C27_accepted (v : View) (down : Nat) (l : Bytes) :
    verdict E v down l = .no ↔ 12 ≤ l.length ∧ leNat (l.take 1) % 4 = 0 ∧ (leNat (l.take 1) / 32 = 3 ∨ leNat (l.take 1) / 32 = 5) ∧
      leNat ((l.drop 1).take 4) = v.addr ∧
      ∃ f d, parse l = some f ∧ nextDown down f.fCnt = some d ∧ f.mic = dataMic E v.nwk 1 v.addr d (signed l) :=
  verdict_accepted v down l

/-- An ABP device, its session keys all equal to the test key. -/
def dlOps : List Op :=
  [.init .eu868, .setSession 0x01020304 0 0 Tests.appKey Tests.appKey, .send 2 [1] false 0, .event 4 (Tests.rxOf []), .timer .rx1]

/-- A downlink for this device with counter `cnt`. -/
def dlFrame (D : Downlink) (cnt : Nat) : Bytes := D.build Tests.xorEnv Tests.appKey Tests.appKey 0x01020304 cnt

/-- An unconfirmed downlink on port 7. -/
def helloDown : Downlink := ⟨false, 0, 0, [], some (7, [0x68, 0x69])⟩

/-- The demonstration: waiting in the first window, a packet `l` arrives. -/
theorem dlFine : Demo.fine dlOps = true := by decide +kernel

example : ∃ log it s' l, Hist Tests.xorEnv (log ++ [it]) s' ∧ outcome log it = .packet l ∧
    (config Tests.xorEnv log).joining = false ∧ (results it.ev).map (·.1) = [.no] := by
  obtain ⟨h, ho⟩ := Demo.next (op := .event 2 (Tests.rxOf (dlFrame helloDown 1))) dlFine (by decide +kernel) (by decide +kernel)
  exact ⟨_, _, _, dlFrame helloDown 1, h, by decide +kernel, by decide +kernel, by decide +kernel⟩
-- the other verdicts
example : (fun l => verdict Tests.xorEnv (view Tests.xorEnv (Demo.items dlOps)) 5 l) <$>
    [[0x60], 0x40 :: List.replicate 12 0, 0x60 :: List.replicate 12 0, [0x60, 4, 3, 2, 1, 15, 0, 0, 0, 0, 0, 0],
      [0x60, 4, 3, 2, 1, 0, 5, 0, 0, 0, 0, 0], [0x60, 4, 3, 2, 1, 0, 6, 0, 0, 0, 0, 0]] =
    [.msgLen, .msgMhdr, .devAddr, .msgLen, .fcnt, .msgMic] := by decide +kernel

/-! ### C28 -/

/-- C28: a downlink built by the network for this session with a counter in step is delivered: code 0, the right message type, port
and payload as built, signal values from the radio; and the stack has taken over the counter. -/
theorem C28_genuine (h : Hist E (log ++ [it]) s') (D : Downlink) (cnt : Nat)
    (ho : outcome log it = .packet (D.build E (view E log).nwk (view E log).app (view E log).addr cnt))
    (hj : (config E log).joining = false) (hf : D.fOpts.length ≤ 15) (hs : inStep (config E log).down cnt) :
    ∃ m o mt, it.op = .event m o ∧ results it.ev = [(.no, mt, D.shown o.rssi o.snr)] ∧
      mt.toNat = (if D.confirmed then 5 else 3) ∧ s'.session.fCntDown.toNat = cnt := by
  obtain ⟨s, m, o, mt, G, -⟩ := h.gotData ho hj
  have ha : (view E log).addr < 2 ^ 32 := by rw [(view_hist G.hist).addr]; exact BitVec.isLt _
  obtain ⟨k1, k2⟩ := build_verdict D E (view E log) (config E log).down cnt ha hf hs o.rssi o.snr
  obtain ⟨f, hp, h1, h2, h3, h4, h5, h6, h7, h8, h9, h10⟩ := build_parse D E (view E log).nwk (view E log).app (view E log).addr cnt ha hf
  generalize D.build E (view E log).nwk (view E log).app (view E log).addr cnt = l at *
  refine ⟨m, o, mt, G.op, ?_, ?_, ?_⟩
  · rw [G.results, k1, k2]
  · cases l with
    | nil => simp at h8
    | cons b r =>
      rw [G.mtype b r rfl]
      change b.toNat + 256 * 0 = _ at h7
      split at h7 <;> split <;> first | contradiction | omega
  · show (cfgOf s').down = cnt
    rw [G.cfg]
    show ((config E log).receive o l _).down = cnt
    rw [receive_down, k1, if_pos (.inl rfl), hp]
    simp only [h1]
    rw [nextDown_inStep hs]
    rfl

-- Confirmed, with MAC commands, on port 7 and with counter 9 for a session at 0.
example : ∃ log it s', ∃ D : Downlink, Hist Tests.xorEnv (log ++ [it]) s' ∧
    outcome log it = .packet (D.build Tests.xorEnv (view Tests.xorEnv log).nwk (view Tests.xorEnv log).app (view Tests.xorEnv log).addr 9) ∧
    (config Tests.xorEnv log).joining = false ∧ D.fOpts.length ≤ 15 ∧ inStep (config Tests.xorEnv log).down 9 ∧
    D.body = some (7, [1, 2, 3]) ∧ D.confirmed = true := by
  let D : Downlink := ⟨true, 0, 0, [6], some (7, [1, 2, 3])⟩
  obtain ⟨h, ho⟩ := Demo.next (op := .event 2 (Tests.rxOf (dlFrame D 9))) dlFine (by decide +kernel) (by decide +kernel)
  exact ⟨_, _, _, D, h, by decide +kernel, by decide +kernel, by decide +kernel, by unfold inStep; decide +kernel, rfl, rfl⟩

/-! ### C29 -/

/-- C29: whatever arrives in a receive window, in every reachable state, processing ends without any out-of-bounds access or
other undefined outcome of the model. -/
theorem C29_safe {s : St} (h : Hist E log s) (hw : stage (trace log) = .rx1 ∨ stage (trace log) = .rx2) (m : Byte) (o : Oracle) :
    ∃ s' ev, step E s (.event m o) = .ok (.unit, s', ev) ∧ Inv s' := by
  have hp : s.phase ≠ .tx := by
    intro hp
    have := stage_hist h
    rw [hp] at this
    rcases hw with hw | hw <;> rw [hw] at this <;> exact absurd this (by decide)
  rcases step_ok E h.inv (op := .event m o) trivial with ⟨r, s', ev, hs, hi⟩ | ⟨ht, -⟩
  · refine ⟨s', ev, ?_, hi⟩
    have hs2 := hs
    simp only [step, bind, Except.bind] at hs2
    split at hs2
    · simp at hs2
    · cases hs2; exact hs
  · exact absurd ht.1 hp

example : ∃ log s, Hist Tests.xorEnv log s ∧ stage (trace log) = .rx1 :=
  ⟨_, _, Demo.hist dlFine, by decide +kernel⟩

/-! ### C32 -/

/-- C32: for a frame of this session whose network counter is in step with the counter last taken over, the stack checks the MIC
with, stores, and decrypts with exactly the network's 32-bit counter. The hypothesis says the frame shows the low 16 bits of the
network's counter. -/
theorem C32_counter (h : Hist E (log ++ [it]) s') (l : Bytes) (f : DataFrame) (cnt : Nat) (ho : outcome log it = .packet l)
    (hj : (config E log).joining = false) (hs : inStep (config E log).down cnt)
    (hlen : 12 ≤ l.length) (hm : f.mtype = 3 ∨ f.mtype = 5) (hma : f.major = 0) (hf : parse l = some f) (ha : f.devAddr = (view E log).addr)
    (hc : f.fCnt = cnt % 65536) :
    s'.session.fCntDown.toNat = cnt ∧
    (results it.ev).map (·.1) = [if f.mic = dataMic E (view E log).nwk 1 (view E log).addr cnt (signed l) then .no else .msgMic] ∧
    (f.mic = dataMic E (view E log).nwk 1 (view E log).addr cnt (signed l) → ∀ p, f.port = some p →
      (results it.ev).map (·.2.2.data) =
        [some (crypt E (if p = 0 then (view E log).nwk else (view E log).app) 1 (view E log).addr cnt f.payload)]) := by
  obtain ⟨s, m, o, mt, G, -⟩ := h.gotData ho hj
  have hnx : nextDown (config E log).down f.fCnt = some cnt := by rw [hc]; exact nextDown_inStep hs
  have e1 : leNat (l.take 1) / 32 = f.mtype ∧ leNat (l.take 1) % 4 = f.major ∧ leNat ((l.drop 1).take 4) = f.devAddr := by
    unfold parse at hf
    simp only at hf
    split at hf
    · simp at hf
    · cases hf; exact ⟨rfl, rfl, rfl⟩
  have hdd : isDataDown l = true := by
    unfold isDataDown
    rw [decide_eq_true hlen, e1.1, e1.2.1, hma]
    rcases hm with h | h <;> rw [h] <;> rfl
  have hv : verdict E (view E log) (config E log).down l =
      if f.mic = dataMic E (view E log).nwk 1 (view E log).addr cnt (signed l) then .no else .msgMic := by
    unfold verdict
    rw [if_neg (by omega), if_neg (by rw [hdd]; decide), if_neg (by rw [e1.2.2, ha]; simp), hf]
    simp only [hnx]
  refine ⟨?_, ?_, ?_⟩
  · show (cfgOf s').down = cnt
    rw [G.cfg]
    show ((config E log).receive o l _).down = cnt
    rw [receive_down, if_pos (by rw [hv]; split <;> simp), hf]
    simp only [hnx]
    rfl
  · rw [G.results, hv]; rfl
  · intro hmic p hp
    rw [G.results]
    unfold handed
    rw [hv, if_pos hmic, hf]
    simp only [hp, hnx]
    rfl

/-- A session at 0x1fff0 whose next downlink is in the next block of 65536. -/
def dlRollOps : List Op :=
  [.init .eu868, .setSession 0x01020304 0 0x1fff0 Tests.appKey Tests.appKey, .send 2 [1] false 0, .event 4 (Tests.rxOf []), .timer .rx1]

example : ∃ log it s' l f, Hist Tests.xorEnv (log ++ [it]) s' ∧ outcome log it = .packet l ∧
    (config Tests.xorEnv log).joining = false ∧ inStep (config Tests.xorEnv log).down 0x20003 ∧ parse l = some f ∧ f.fCnt = 3 ∧
    s'.session.fCntDown = 0x20003#32 := by
  obtain ⟨h, ho⟩ := Demo.next (ops := dlRollOps) (op := .event 2 (Tests.rxOf (dlFrame helloDown 0x20003))) (by decide +kernel) (by decide +kernel) (by decide +kernel)
  refine ⟨_, _, _, dlFrame helloDown 0x20003, _, h, by decide +kernel, by decide +kernel, by unfold inStep; decide +kernel, rfl, by decide +kernel, by decide +kernel⟩

/-! ### C35 -/

/-- C35, what holds: the FOpts field of a data downlink whose counter is taken over is executed: the configuration after it and the
calls into the application's MAC handlers are those of executing its commands in order. Missing: a port-0 payload is not
executed (`C35_port0`); and a frame with a wrong MIC is executed too (C30). -/
theorem C35_fopts_partial (h : Hist E (log ++ [it]) s') (l : Bytes) (ho : outcome log it = .packet l)
    (hj : (config E log).joining = false) (hr : (results it.ev).map (·.1) = [.no]) :
    ∃ m o f, it.op = .event m o ∧ parse l = some f ∧
      macCalls it.ev = (((config E log).arrived l f o.snr).execBytes o.bat f.fOpts).2 ∧
      cfgOf s' = { (((config E log).arrived l f o.snr).execBytes o.bat f.fOpts).1 with joining := false, cnt := 0 } := by
  obtain ⟨s, m, o, mt, G, -⟩ := h.gotData ho hj
  rw [G.results] at hr
  simp only [List.map_cons, List.map_nil, List.cons.injEq, and_true] at hr
  obtain ⟨m, o, f, h1, h2, h3, h4⟩ := h.executed ho hj (.inl hr)
  rw [if_pos hr] at h4
  exact ⟨m, o, f, h1, h2, h3, h4⟩

-- RXTimingSetupReq 5 and DevStatusReq in FOpts.
example : ∃ log it s' l, Hist Tests.xorEnv (log ++ [it]) s' ∧ outcome log it = .packet l ∧
    (config Tests.xorEnv log).joining = false ∧ (results it.ev).map (·.1) = [.no] ∧
    s'.defaultRx1Delay = 5000 ∧ s'.mac.queue = [8, 6, 255, 59] := by
  let D : Downlink := ⟨false, 0, 0, [8, 5, 6], none⟩
  obtain ⟨h, ho⟩ := Demo.next (op := .event 2 (Tests.rxOf (dlFrame D 9))) dlFine (by decide +kernel) (by decide +kernel)
  exact ⟨_, _, _, dlFrame D 9, h, by decide +kernel, by decide +kernel, by decide +kernel, by decide +kernel, by decide +kernel⟩

/-- The same commands as payload on port 0 are delivered to the application, and not executed. -/
theorem C35_port0 : ∃ log it s', Hist Tests.xorEnv (log ++ [it]) s' ∧
    outcome log it = .packet (Downlink.build ⟨false, 0, 0, [], some (0, [8, 5, 6])⟩ Tests.xorEnv (view Tests.xorEnv log).nwk
      (view Tests.xorEnv log).app (view Tests.xorEnv log).addr 9) ∧
    (config Tests.xorEnv log).joining = false ∧
    (results it.ev).map (fun r => (r.1, r.2.2.fPort, r.2.2.data)) = [(.no, 0, some [8, 5, 6])] ∧
    (s'.defaultRx1Delay, s'.mac) = (it.pre.defaultRx1Delay, it.pre.mac) ∧ s'.defaultRx1Delay = 1000 := by
  let D : Downlink := ⟨false, 0, 0, [], some (0, [8, 5, 6])⟩
  obtain ⟨h, ho⟩ := Demo.next (op := .event 2 (Tests.rxOf (dlFrame D 9))) dlFine (by decide +kernel) (by decide +kernel)
  exact ⟨_, _, _, h, by decide +kernel, by decide +kernel, by decide +kernel, by decide +kernel, by decide +kernel⟩

/-! ### C37 -/

/-- C37, the application: for every packet, in data and join exchanges and whatever the verdict, the RSSI and SNR handed over are those
the radio reported. (The margin in DevStatusAns is `C37_margin` in Props/Mac.) -/
theorem C37_signal (h : Hist E (log ++ [it]) s') (l : Bytes) (ho : outcome log it = .packet l) :
    ∃ m o, it.op = .event m o ∧ (results it.ev).map (fun r => (r.2.2.rssi, r.2.2.snr)) = [(o.rssi, o.snr)] := by
  cases hj : (config E log).joining with
  | false =>
    obtain ⟨s, m, o, mt, G, -⟩ := h.gotData ho hj
    refine ⟨m, o, G.op, ?_⟩
    rw [G.results]
    simp only [List.map_cons, List.map_nil, List.cons.injEq, and_true, Prod.mk.injEq]
    unfold handed
    split
    · split <;> exact ⟨rfl, rfl⟩
    · exact ⟨rfl, rfl⟩
    · exact ⟨rfl, rfl⟩
  | true =>
    obtain ⟨s, m, o, mt, p, G, -⟩ := h.gotJoin ho hj
    refine ⟨m, o, G.op, ?_⟩
    rw [G.results]
    simp only [List.map_cons, List.map_nil, G.signal.1, G.signal.2]

example : ∃ log it s' l o, Hist Tests.xorEnv (log ++ [it]) s' ∧ outcome log it = .packet l ∧ it.op = .event 2 o ∧ o.rssi = -100 ∧ o.snr = 7 := by
  obtain ⟨h, ho⟩ := Demo.next (op := .event 2 { Tests.rxOf (dlFrame helloDown 9) with rssi := -100, snr := 7 }) dlFine
    (by decide +kernel) (by decide +kernel)
  exact ⟨_, _, _, dlFrame helloDown 9, _, h, by decide +kernel, ho, rfl, rfl⟩

end Uwan
