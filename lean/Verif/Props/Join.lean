import Verif.Lemmas.JoinHist
import Verif.Tests.Demo

/-! # Joining (C38-C41, C44) -/

namespace Uwan
open Spec

variable {E : Env} {log : List Item} {it : Item} {s' : St}

/-! ### C38 -/

/-- C38: an accepted `uwan_join` hands exactly one frame to the radio: MHDR 0, the application EUI as given, the device EUI reversed, the
DevNonce (the low 16 bits of the second random number) and the MIC under AppKey, 23 bytes in all; and the stack is no longer joined.
EUIs and key are those of the last `uwan_set_otaa_keys` in the history (zero without any). -/
theorem C38_join_request (h : Hist E (log ++ [it]) s') (r1 r2 : Nat) (hop : it.op = .join r1 r2) (hr : it.ret = .err .no) :
    txs it.ev = [joinRequest E (view E log).appKey (view E log).appEui (view E log).devEui.reverse (r2 % 65536)] ∧
    (∀ l ∈ txs it.ev, l.length = 23) ∧ s'.session.isJoined = false := by
  obtain ⟨s, f, d, hj⟩ := h.joinSent hop hr
  have hv := view_hist hj.hist
  have e : txs it.ev = [joinRequest E (view E log).appKey (view E log).appEui (view E log).devEui.reverse (r2 % 65536)] := by
    rw [hj.ev, txs_join, buildJoin_eq, nonceOf_toNat, hv.appKey, hv.appEui, hv.devEui]
  refine ⟨e, ?_, ?_⟩
  · intro l hl
    rw [e, List.mem_singleton] at hl
    rw [hl]
    exact joinRequest_length _ _ _ _ (by rw [hv.appEui]; simp) (by rw [hv.devEui]; simp)
  · have hv' := (view_hist h).joined
    rw [← hv', view_snoc, View.next, hop]
    simp [hr]

/-- C38 with the keys spelt out: nothing but the last `uwan_set_otaa_keys` decides them. -/
theorem C38_keys {log' : List Item} {k : Item} (h : Hist E (log ++ [k] ++ log' ++ [it]) s') (d a : Vector Byte 8) (key : Block)
    (hk : k.op = .setOtaaKeys d a key) (hl : ∀ x ∈ log', ∀ d a key, x.op ≠ .setOtaaKeys d a key) (r1 r2 : Nat)
    (hop : it.op = .join r1 r2) (hr : it.ret = .err .no) :
    txs it.ev = [joinRequest E key a.toList d.toList.reverse (r2 % 65536)] := by
  have hv : (view E (log ++ [k] ++ log')).appKey = key ∧ (view E (log ++ [k] ++ log')).appEui = a.toList ∧
      (view E (log ++ [k] ++ log')).devEui = d.toList := by
    refine snoc_induction (P := fun l => (∀ x ∈ l, ∀ d a key, x.op ≠ .setOtaaKeys d a key) →
      (view E (log ++ [k] ++ l)).appKey = key ∧ (view E (log ++ [k] ++ l)).appEui = a.toList ∧
      (view E (log ++ [k] ++ l)).devEui = d.toList) ?_ ?_ log' hl
    · intro _
      rw [List.append_nil, view_snoc, View.next, hk]
      exact ⟨rfl, rfl, rfl⟩
    · intro l x ih hx
      have := ih (fun y hy => hx y (by simp [hy]))
      rw [← List.append_assoc, view_snoc, View.next]
      cases ho : x.op with
      | setOtaaKeys d a key => exact absurd ho (hx x (by simp) d a key)
      | join => simp only; split <;> exact this
      | send => simp only; split <;> exact this
      | event => simp only; split <;> exact this
      | _ => exact this
  obtain ⟨e1, e2, e3⟩ := hv
  have := (C38_join_request h r1 r2 hop hr).1
  rwa [e1, e2, e3] at this

/-- Non-trivial case: the keys of the test suite. -/
example : ∃ (log : List Item) (it : Item) (s' : St) (r1 r2 : Nat), Hist Tests.xorEnv (log ++ [it]) s' ∧ it.op = .join r1 r2 ∧
    it.ret = .err .no ∧ it.pre.session.isJoined = true := by
  have h := Demo.next (ops := [.init .eu868, .setOtaaKeys Tests.devEui Tests.appEui Tests.appKey,
    .setSession 0x26011bda 7 8 Tests.appKey Tests.appKey]) (op := .join 1 0x12345) (by decide +kernel) trivial (by decide +kernel)
  exact ⟨_, _, _, _, _, h.1, h.2, by decide +kernel, by decide +kernel⟩

/-! ### C39 -/

theorem cfEntry_chan (c : Cfg) (i f : Nat) : ∃ fr on, c.cfEntry i f = { c with freq := fr, on := on } := by
  unfold Cfg.cfEntry Cfg.enable Cfg.setChannel
  split <;> split <;> exact ⟨_, _, rfl⟩

theorem cfList_chan (c : Cfg) (i : Nat) (l : Bytes) : ∃ fr on, c.cfList i l = { c with freq := fr, on := on } := by
  unfold Cfg.cfList
  split
  · generalize List.range 5 = r
    have : ∀ (c : Cfg), ∃ fr on, r.foldl (fun c k => c.cfEntry (i + k) (leNat ((l.drop (3 * k)).take 3))) c =
        { c with freq := fr, on := on } := by
      induction r with
      | nil => intro c; exact ⟨_, _, rfl⟩
      | cons k r ih =>
        intro c
        obtain ⟨f1, o1, e1⟩ := cfEntry_chan c (i + k) (leNat ((l.drop (3 * k)).take 3))
        obtain ⟨f2, o2, e2⟩ := ih (c.cfEntry (i + k) (leNat ((l.drop (3 * k)).take 3)))
        refine ⟨f2, o2, ?_⟩
        rw [List.foldl_cons, e2, e1]
    exact this c
  · exact ⟨_, _, rfl⟩

/-- The configuration after an accepted join-accept: what the message sets, and everything else as it was. -/
theorem accepted_cfg (h : Hist E (log ++ [it]) s') (dec : Block → Block → Block) (hdec : ∀ k b, E.aes k (dec k b) = b)
    (J : JoinAccept) (h1 : J.appNonce < 2 ^ 24) (h2 : J.netId < 2 ^ 24) (h3 : J.devAddr < 2 ^ 32)
    (hcf : J.cfList.length = 0 ∨ J.cfList.length = 16) (hj : (config E log).joining = true)
    (ho : outcome log it = .packet (J.build E dec (view E log).appKey)) :
    ∃ fr on, cfgOf s' =
      { config E log with
        off := if J.dlSettings.toNat / 16 % 8 < 6 then J.dlSettings.toNat / 16 % 8 else (config E log).off
        rx2Dr := if J.dlSettings.toNat % 16 < 6 then J.dlSettings.toNat % 16 else (config E log).rx2Dr
        delay := max 1 (J.rxDelay.toNat % 16)
        dr := (config E log).defDr
        ack := false
        down := 0
        joining := false
        freq := fr
        on := on } ∧ (J.cfList = [] → fr = (config E log).freq ∧ on = (config E log).on) := by
  obtain ⟨s, mask, o, mt, p, G, -⟩ := h.gotJoin ho hj
  obtain ⟨hc, hlen⟩ := joinClear_build hdec J (view E log).appKey hcf
  have hver := joinVerdict_build hdec J (view E log).appKey hcf
  obtain ⟨f1, f2, f3, f4, f5, f6⟩ := JoinAccept.fields J ((E.cmac (view E log).appKey (0x20 :: J.body)).toList.take 4) h1 h2 h3
  have hcl := clear_length J (E.cmac (view E log).appKey (0x20 :: J.body))
  have hl := G.bytes
  have hres := G.results
  rw [hver] at hres
  generalize J.build E dec (view E log).appKey = l at *
  have hrx : o.rxData = l := take_255 hl.symm (by omega)
  have hrep : report it.ev = some .no := by rw [report_results, hres]; rfl
  have hcfg := config_hist h
  rw [config_snoc, Cfg.next, G.op] at hcfg
  simp only [hrep, hj, if_true, hrx] at hcfg
  rw [hc] at hcfg
  have hpre : cfgOf it.pre = config E log := by rw [G.pre]; exact config_hist G.hist
  have hreg : ∃ rg, (config E log).region = some rg := by
    rw [← hpre, G.pre]
    exact Option.isSome_iff_exists.mp G.region
  obtain ⟨rg, hreg⟩ := hreg
  rw [accept_eq _ _ rg hreg] at hcfg
  rw [hcl] at hcfg
  unfold Cfg.acc at hcfg
  rw [f4, f5, f6] at hcfg
  split at hcfg
  · next h32 =>
    obtain ⟨fr, on, e⟩ := cfList_chan
      { config E log with
        off := if J.dlSettings.toNat / 16 % 8 < 6 then J.dlSettings.toNat / 16 % 8 else (config E log).off
        rx2Dr := if J.dlSettings.toNat % 16 < 6 then J.dlSettings.toNat % 16 else (config E log).rx2Dr
        delay := max 1 (J.rxDelay.toNat % 16)
        dr := (config E log).defDr
        ack := false
        down := 0 } (cfFirst rg) (J.cfList ++ (E.cmac (view E log).appKey (0x20 :: J.body)).toList.take 4)
    refine ⟨fr, on, ?_, fun hn => ?_⟩
    · rw [hcfg, e]
    · rw [hn] at h32; simp at h32
  · exact ⟨_, _, hcfg, fun _ => ⟨rfl, rfl⟩⟩

/-- C39, the session: any join-accept built for AppKey by the rules of LoRaWAN 1.0 that arrives in a join exchange is reported as accepted
and establishes its address, counters 0 and session keys; the nonce is the one of the last join-request sent. -/
theorem C39_session (h : Hist E (log ++ [it]) s') (dec : Block → Block → Block) (hdec : ∀ k b, E.aes k (dec k b) = b)
    (J : JoinAccept) (h1 : J.appNonce < 2 ^ 24) (h2 : J.netId < 2 ^ 24) (h3 : J.devAddr < 2 ^ 32)
    (hcf : J.cfList.length = 0 ∨ J.cfList.length = 16) (hj : (config E log).joining = true)
    (ho : outcome log it = .packet (J.build E dec (view E log).appKey)) :
    (results it.ev).map (fun r => (r.1, r.2.1)) = [(.no, 1)] ∧
    s'.session =
      { isJoined := true
        ackRequired := false
        dr := it.pre.defaultDr
        devAddr := BitVec.ofNat 32 J.devAddr
        fCntUp := 0
        fCntDown := 0
        nwkSKey := sessionKey E (view E log).appKey 1 J.appNonce J.netId (view E log).nonce
        appSKey := sessionKey E (view E log).appKey 2 J.appNonce J.netId (view E log).nonce } ∧
    s'.rx1Offset.toNat =
      (if J.dlSettings.toNat / 16 % 8 < 6 then J.dlSettings.toNat / 16 % 8 else it.pre.rx1Offset.toNat) ∧
    s'.rx2Dr = (if J.dlSettings.toNat % 16 < 6 then J.dlSettings.toNat % 16 else it.pre.rx2Dr) ∧
    s'.defaultRx1Delay.toNat = 1000 * max 1 (J.rxDelay.toNat % 16) ∧
    (J.cfList = [] → chFreq s'.chan = chFreq it.pre.chan ∧ chOn s'.chan = chOn it.pre.chan) := by
  obtain ⟨fr, on, key, kch⟩ := accepted_cfg h dec hdec J h1 h2 h3 hcf hj ho
  obtain ⟨s, mask, o, mt, p, G, -⟩ := h.gotJoin ho hj
  obtain ⟨hc, hlen⟩ := joinClear_build hdec J (view E log).appKey hcf
  have hver := joinVerdict_build hdec J (view E log).appKey hcf
  obtain ⟨f1, f2, f3, f4, f5, f6⟩ := JoinAccept.fields J ((E.cmac (view E log).appKey (0x20 :: J.body)).toList.take 4) h1 h2 h3
  have hcl := clear_length J (E.cmac (view E log).appKey (0x20 :: J.body))
  have hl := G.bytes
  have hmt := G.mtype
  have hres := G.results
  rw [hver] at hres
  have hhead : ∃ r, J.build E dec (view E log).appKey = 0x20 :: r := ⟨_, rfl⟩
  generalize J.build E dec (view E log).appKey = l at *
  have hrx : o.rxData = l := take_255 hl.symm (by omega)
  have hrep : report it.ev = some .no := by rw [report_results, hres]; rfl
  have hjr : joinReported it.ev = true := by
    rw [joinReported_iff h G.op, hj, hrep]; rfl
  have hv := view_hist h
  rw [view_snoc, View.next, G.op] at hv
  simp only [hjr, if_true, hrx] at hv
  have hpre : cfgOf it.pre = config E log := by rw [G.pre]; exact config_hist G.hist
  have hd0 := h.inv.delay
  rw [← hpre] at key kch
  refine ⟨?_, ?_, ?_, ?_, ?_, ?_⟩
  · rw [hres]
    obtain ⟨r, hb⟩ := hhead
    have := hmt _ _ hb
    have hm1 : mt = 1 := BitVec.eq_of_toNat_eq (by rw [this]; rfl)
    rw [hm1]; rfl
  · have e1 := hv.joined
    have e2 := hv.addr
    have e3 := hv.up
    have e4 := hv.nwk
    have e5 := hv.app
    simp only [View.accept, hc, f1, f2, f3] at e1 e2 e3 e4 e5
    have e6 : s'.session.ackRequired = false := congrArg Cfg.ack key
    have e7 : s'.session.dr = it.pre.defaultDr := congrArg Cfg.dr key
    have e8 : s'.session.fCntDown.toNat = 0 := congrArg Cfg.down key
    have e9 : s'.session.devAddr = BitVec.ofNat 32 J.devAddr := by rw [e2]; simp
    have e10 : s'.session.fCntUp = 0 := BitVec.eq_of_toNat_eq e3.symm
    have e11 : s'.session.fCntDown = 0 := BitVec.eq_of_toNat_eq e8
    generalize s'.session = ss at *
    cases ss
    simp only [Session.mk.injEq] at *
    exact ⟨e1.symm, e6, e7, e9, e10, e11, e4.symm, e5.symm⟩
  · exact congrArg Cfg.off key
  · exact congrArg Cfg.rx2Dr key
  · obtain ⟨d, hd1, hd2, hd3⟩ := hd0
    have hd4 : s'.defaultRx1Delay.toNat = d * 1000 := by rw [hd3, BitVec.toNat_ofNat, Nat.mod_eq_of_lt (by omega)]
    have e := congrArg Cfg.delay key
    have e' : s'.defaultRx1Delay.toNat / 1000 = max 1 (J.rxDelay.toNat % 16) := e
    rw [← e', hd4]; omega
  · intro hn
    obtain ⟨k1, k2⟩ := kch hn
    exact ⟨(congrArg Cfg.freq key).trans k1, (congrArg Cfg.on key).trans k2⟩

/-- C39, the converse: in a join exchange every packet is judged by length, first byte and MIC under AppKey, and only a packet that passes
makes the stack joined. -/
theorem C39_verdict (h : Hist E (log ++ [it]) s') (l : Bytes) (hj : (config E log).joining = true)
    (ho : outcome log it = .packet l) :
    (results it.ev).map (·.1) = [joinVerdict E (view E log).appKey l] ∧
    (s'.session.isJoined = true → joinVerdict E (view E log).appKey l = .no ∨ it.pre.session.isJoined = true) := by
  obtain ⟨s, mask, o, mt, p, G, -⟩ := h.gotJoin ho hj
  refine ⟨by rw [G.results]; rfl, fun hjd => ?_⟩
  by_cases hn : joinVerdict E (view E log).appKey l = .no
  · exact .inl hn
  · right
    have hr : joinReported it.ev = false := by
      rw [joinReported_iff h G.op, report_results, G.results]
      simp [hn]
    have := (view_hist h).joined
    rw [view_snoc, View.next, G.op] at this
    simp only [hr, Bool.false_eq_true, if_false] at this
    rw [G.pre, ← (view_hist G.hist).joined, this]
    exact hjd

/-- The accept message of the demonstration. -/
def demoAccept : JoinAccept := ⟨0x030201, 0x060504, 0x0a090807, 0x23, 0x05, []⟩

/-- Non-trivial case of C39: a join-accept for the test suite's cipher (its own inverse), answering a join-request in the first
window. -/
example : ∃ (log : List Item) (it : Item) (s' : St) (dec : Block → Block → Block) (J : JoinAccept),
    Hist Tests.xorEnv (log ++ [it]) s' ∧ (∀ k b, Tests.xorEnv.aes k (dec k b) = b) ∧ J.appNonce < 2 ^ 24 ∧ J.netId < 2 ^ 24 ∧
    J.devAddr < 2 ^ 32 ∧ J.cfList.length = 0 ∧ (config Tests.xorEnv log).joining = true ∧
    outcome log it = .packet (J.build Tests.xorEnv dec (view Tests.xorEnv log).appKey) := by
  have hx : ∀ k b : Block, Tests.xorEnv.aes k (Tests.xorEnv.aes k b) = b := by
    intro k b
    show Vector.zipWith _ (Vector.zipWith _ b k) k = b
    ext i hi
    simp [BitVec.xor_assoc]
  have h := Demo.next
    (ops := [.init .eu868, .setOtaaKeys Tests.devEui Tests.appEui Tests.appKey, .join 1 0x12345, .event 4 (Tests.rxOf []), .timer .rx1])
    (op := .event 2 (Tests.rxOf (demoAccept.build Tests.xorEnv Tests.xorEnv.aes Tests.appKey)))
    (by decide +kernel) trivial (by decide +kernel)
  refine ⟨_, _, _, Tests.xorEnv.aes, demoAccept, h.1, hx, by decide, by decide, by decide, rfl, by decide +kernel, ?_⟩
  unfold outcome
  rw [h.2]
  decide +kernel

/-! ### C40 -/

/-- C40: a join attempt that ends with an error leaves everything as it was before `uwan_join`, except that the stack is not joined and for
the exchange's own bookkeeping: modem parameters, the frame buffer, the DevNonce, the two window delays (set anew with every frame) and
the time stamp of a DeviceTimeReq. The stack is idle again. -/
theorem C40_failed_join {j : Item} {seg : List Item} (h : Hist E (log ++ [j] ++ seg ++ [it]) s') (r1 r2 : Nat)
    (hop : j.op = .join r1 r2) (hr : j.ret = .err .no) (hseg : ∀ x ∈ seg, isEnv x.op = true ∧ results x.ev = [])
    (e : Err) (mt : Byte) (p : DlPkt) (hres : results it.ev = [(e, mt, p)]) (he : e ≠ .no) :
    ∃ pp fr b t, s' =
      { j.pre with
        session := { j.pre.session with isJoined := false }
        mac := { j.pre.mac with saveDevTime := b, devTime := t }
        pp := pp
        frame := fr
        devNonce := BitVec.ofNat 32 (r2 % 65536)
        rx1Delay := 5000
        rx2Delay := 6000
        joinState := false
        phase := .idle } := by
  obtain ⟨sj, hj, -⟩ := Hist.prefix (a := log ++ [j]) (b := seg ++ [it]) (by simpa using h)
  obtain ⟨s0, h0, hpre, -, -, hs0⟩ := hj.last
  obtain ⟨s1, h1, -, -, -, hs1⟩ := h.last
  rw [hop] at hs0
  obtain ⟨e0, he0, hc0⟩ := step_join h0.inv hs0
  rw [hr] at he0
  cases he0
  have hstart : ∃ ph pp fr b t, sj = tried j.pre ph true pp fr (nonceOf r2) b t := by
    rw [hpre]
    generalize j.ev = evj at *
    cases hc0 with
    | sent f d hp => exact ⟨.tx, txPp s0.pp d, _, _, _, rfl⟩
  obtain ⟨ph, pp, fr, b, t, e1⟩ := tried_seg seg (log ++ [j]) sj s1 hj hstart h1 hseg
  have hjn : s1.joinState = true := by rw [e1]; rfl
  have hrep : report it.ev = some e := by rw [report_results, hres]; rfl
  have hopev : ∃ m o, it.op = .event m o := by
    cases hq : it.op with
    | event m o => exact ⟨m, o, rfl⟩
    | _ =>
      exfalso
      rw [hq] at hs1
      have := no_report h1.inv hs1 (by intro m o hx; cases hx) e mt p
      apply this
      have hm : (e, mt, p) ∈ results it.ev := by rw [hres]; simp
      unfold results at hm
      obtain ⟨x, hx, hxe⟩ := List.mem_filterMap.mp hm
      cases x with
      | downlink a b c =>
        simp only [Option.some.injEq, Prod.mk.injEq] at hxe
        obtain ⟨rfl, rfl, rfl⟩ := hxe
        exact hx
      | _ => simp at hxe
  obtain ⟨m, o, hoe⟩ := hopev
  have hjc : (config E (log ++ [j] ++ seg)).joining = true := by rw [← config_hist h1]; exact hjn
  suffices ∃ fr, s' = { s1 with phase := .idle, joinState := false, frame := fr } by
    obtain ⟨fr', e2⟩ := this
    rw [e2, e1]
    exact ⟨pp, fr', b, t, rfl⟩
  by_cases hx : e = .rxTimeout ∨ e = .rxCrc
  · obtain ⟨sx, err, ev0, ev1, R, hre⟩ := h.reported hoe hrep
    have := R.hist.unique h1
    subst this
    by_cases hn : err = .no
    · subst hn
      obtain ⟨e', q1, q2, q3⟩ := R.dl.packet
      rw [hre] at q1
      cases q1
      rcases hx with hx | hx
      · exact absurd hx q2
      · exact absurd hx q3
    · exact ⟨_, (R.dl.failed hn).2⟩
  · obtain ⟨sx, s2, ev0, p', ev, R⟩ := h.rxJoin hoe hrep hjc (fun q => hx (.inl q)) (fun q => hx (.inr q))
    have := R.hist.unique h1
    subst this
    have hc := R.join
    have hpost := R.post
    cases hc with
    | len => exact ⟨_, hpost⟩
    | mhdr => exact ⟨_, hpost⟩
    | mic => exact ⟨_, hpost⟩
    | good => exact absurd rfl he

/-- The operations of the next demonstration. -/
def failA : List Op :=
  [.init .eu868, .setOtaaKeys Tests.devEui Tests.appEui Tests.appKey, .setSession 0x26011bda 7 8 Tests.appKey Tests.appKey] ++
    [.join 1 0x12345] ++ [.event 4 (Tests.rxOf []), .timer .rx1]
def failB : Op := .event 2 (Tests.rxOf (0x20 :: List.replicate 16 1))

/-- Non-trivial case of C40: the answer to a join-request has a wrong MIC. -/
example : ∃ (log seg : List Item) (j it : Item) (s' : St) (r1 r2 : Nat) (mt : Byte) (p : DlPkt),
    Hist Tests.xorEnv (log ++ [j] ++ seg ++ [it]) s' ∧ j.op = .join r1 r2 ∧ j.ret = .err .no ∧
    (∀ x ∈ seg, isEnv x.op = true ∧ results x.ev = []) ∧ results it.ev = [(.msgMic, mt, p)] ∧ j.pre.session.isJoined = true := by
  have h := Demo.two
    (a := [.init .eu868, .setOtaaKeys Tests.devEui Tests.appEui Tests.appKey, .setSession 0x26011bda 7 8 Tests.appKey Tests.appKey])
    (op1 := .join 1 0x12345) (b := [.event 4 (Tests.rxOf []), .timer .rx1])
    (op2 := .event 2 (Tests.rxOf (0x20 :: List.replicate 16 1))) (by decide +kernel)
  have hr : (results (Demo.nextItem failA failB).ev).map (·.1) = [.msgMic] := by decide +kernel
  obtain ⟨r, hr1, hr2⟩ : ∃ r : Err × Byte × DlPkt, results (Demo.nextItem failA failB).ev = [r] ∧ r.1 = .msgMic := by
    obtain ⟨r, t, e1, e2, e3⟩ := List.map_eq_cons_iff.mp hr
    rw [List.map_eq_nil_iff] at e3
    exact ⟨r, by rw [e1, e3], e2⟩
  refine ⟨_, _, _, _, _, 1, 0x12345, r.2.1, r.2.2, h, Demo.nextItem_op _ _, by decide +kernel, by decide +kernel, ?_,
    by decide +kernel⟩
  exact hr1.trans (by rw [← hr2])

/-! ### C41 -/

/-- C41: `uwan_is_joined()` is true exactly when the application supplied a session or was told of an accepted join-accept, and no
`uwan_init` and no accepted `uwan_join` came after that. -/
theorem C41_is_joined (h : Hist E (log ++ [it]) s') (hop : it.op = .isJoined) :
    ∃ b, it.ret = .bool b ∧
      (b = true ↔ ∃ l x r, log = l ++ [x] ++ r ∧ establishes x = true ∧ ∀ y ∈ r, abandons y = false) := by
  obtain ⟨s, h1, -, -, -, hs⟩ := h.last
  rw [hop] at hs
  simp only [step, Except.ok.injEq, Prod.mk.injEq] at hs
  refine ⟨s.session.isJoined, hs.1.symm, ?_⟩
  rw [← (view_hist h1).joined]
  exact joined_iff log

/-- Non-trivial cases of C41: true after a session was given, false after a join was started. -/
example : ∃ (log : List Item) (it : Item) (s' : St), Hist Tests.xorEnv (log ++ [it]) s' ∧ it.op = .isJoined ∧ it.ret = .bool true := by
  have h := Demo.next (ops := [.init .eu868, .setSession 1 2 3 Tests.appKey Tests.appKey]) (op := .isJoined)
    (by decide +kernel) trivial (by decide +kernel)
  exact ⟨_, _, _, h.1, h.2, by decide +kernel⟩

example : ∃ (log : List Item) (it : Item) (s' : St), Hist Tests.xorEnv (log ++ [it]) s' ∧ it.op = .isJoined ∧ it.ret = .bool false := by
  have h := Demo.next (ops := [.init .eu868, .setSession 1 2 3 Tests.appKey Tests.appKey, .join 0 0]) (op := .isJoined)
    (by decide +kernel) trivial (by decide +kernel)
  exact ⟨_, _, _, h.1, h.2, by decide +kernel⟩

/-! ### C44 -/

/-- C44, partial: if the stack is never restarted while a join is pending, a packet is judged as what its exchange was started for: as a
join-accept after `uwan_join`, as a data downlink after `uwan_send_frame`. What is missing is a restart during a pending join, for which
the claim is false (`C44_stale_join`). -/
theorem C44_partial (h : Hist E (log ++ [it]) s') (hc : unbroken .none log = true) (l : Bytes) (ho : outcome log it = .packet l) :
    (kind log = .join ∧ (results it.ev).map (·.1) = [joinVerdict E (view E log).appKey l]) ∨
    (kind log = .data ∧ (results it.ev).map (·.1) = [verdict E (view E log) (config E log).down l]) := by
  obtain ⟨s, h1, -, -, -, -⟩ := h.last
  obtain ⟨k1, k2⟩ := kind_hist h1 hc
  have hcj : (config E log).joining = decide (kind log = .join) := by rw [← config_hist h1]; exact k2
  cases hk : kind log with
  | none =>
    rw [hk] at hcj
    obtain ⟨sx, mask, o, mt, G, -⟩ := h.gotData ho hcj
    have := G.hist.unique h1
    subst this
    have hp := k1.mp hk
    have hp' := G.phase
    rcases hp with hp | hp <;> rcases hp' with hp' | hp' <;> rw [hp] at hp' <;> cases hp'
  | join =>
    rw [hk] at hcj
    obtain ⟨sx, mask, o, mt, p, G, -⟩ := h.gotJoin ho hcj
    exact .inl ⟨rfl, by rw [G.results]; rfl⟩
  | data =>
    rw [hk] at hcj
    obtain ⟨sx, mask, o, mt, G, -⟩ := h.gotData ho hcj
    exact .inr ⟨rfl, by rw [G.results]; rfl⟩

/-- A restart in the middle of a join, then an uplink in a session supplied by the application. -/
def staleOps : List Op :=
  [.init .eu868, .setOtaaKeys Tests.devEui Tests.appEui Tests.appKey, .join 0 0, .init .eu868,
   .setSession 0x26011bda 0 0 Tests.appKey Tests.appKey, .send 1 [1] false 0, .event 4 (Tests.rxOf []), .timer .rx1]

/-- An empty downlink of the session. -/
def staleDown : Downlink := ⟨false, 0, 0, [], none⟩

/-- Why C44 does not hold in full: `uwan_init` does not forget a pending join (src/stack.c:513-534 never resets `uw_is_join_state`). The
genuine answer to the first uplink after it is taken for a join-accept and rejected because of its length. -/
theorem C44_stale_join : ∃ (log : List Item) (it : Item) (s' : St) (l : Bytes), Hist Tests.xorEnv (log ++ [it]) s' ∧
    kind log = .data ∧ outcome log it = .packet l ∧
    verdict Tests.xorEnv (view Tests.xorEnv log) (config Tests.xorEnv log).down l = .no ∧
    (results it.ev).map (·.1) = [.msgLen] := by
  have h := Demo.next (ops := staleOps)
    (op := .event 2 (Tests.rxOf (staleDown.build Tests.xorEnv Tests.appKey Tests.appKey 0x26011bda 1)))
    (by decide +kernel) trivial (by decide +kernel)
  refine ⟨_, _, _, staleDown.build Tests.xorEnv Tests.appKey Tests.appKey 0x26011bda 1, h.1, ?_, ?_, by decide +kernel,
    by decide +kernel⟩
  · decide +kernel
  · unfold outcome
    rw [h.2]
    decide +kernel

/-- Non-trivial cases of C44: a join and a data exchange without a restart in between. -/
example : ∃ (log : List Item) (it : Item) (s' : St) (l : Bytes), Hist Tests.xorEnv (log ++ [it]) s' ∧
    unbroken .none log = true ∧ kind log = .data ∧ outcome log it = .packet l := by
  have h := Demo.next (ops := [.init .eu868, .setOtaaKeys Tests.devEui Tests.appEui Tests.appKey, .join 0 0, .event 4 (Tests.rxOf []),
    .event 1 (Tests.rxOf []), .event 1 (Tests.rxOf []), .init .eu868,
    .setSession 0x26011bda 0 0 Tests.appKey Tests.appKey, .send 1 [1] false 0, .event 4 (Tests.rxOf []), .timer .rx1])
    (op := .event 2 (Tests.rxOf (staleDown.build Tests.xorEnv Tests.appKey Tests.appKey 0x26011bda 1)))
    (by decide +kernel) trivial (by decide +kernel)
  refine ⟨_, _, _, staleDown.build Tests.xorEnv Tests.appKey Tests.appKey 0x26011bda 1, h.1, by decide +kernel, by decide +kernel, ?_⟩
  unfold outcome
  rw [h.2]
  decide +kernel

end Uwan
