import Verif.Tests.DeviceTests
import Verif.Props.Join
import Verif.Lemmas.Device
import Verif.Props.Sx126x
import Verif.Props.Safety
import Verif.Props.Downlink

/-! # The stack on an SX126x: from the API to the chip and back (C96 to C101) -/

namespace Uwan.Sx126x
open Spec

variable {E : Env} {log : List Entry} {e : Entry} {it : Item} {s s' : St} {t t' : Uwan.St}

theorem data_append (l1 l2 : List Bus) (c : Data) : c.run (l1 ++ l2) = (c.run l1).run l2 := by
  unfold Data.run
  rw [sent_append, List.foldl_append]

theorem fill_get : ∀ (vs : Bytes) (f : Byte → Byte) (a i : Nat), a + vs.length ≤ 256 → ∀ (_ : i < 256),
    fill f (BitVec.ofNat 8 a) vs (BitVec.ofNat 8 i) = if h : a ≤ i ∧ i - a < vs.length then vs[i - a]'h.2 else f (BitVec.ofNat 8 i)
  | [], f, a, i, _, _ => by simp [fill]
  | v :: vs, f, a, i, h, hi => by
    simp only [List.length_cons] at h
    unfold fill
    rw [show (BitVec.ofNat 8 a + 1 : Byte) = BitVec.ofNat 8 (a + 1) by rw [BitVec.ofNat_add]; rfl, fill_get vs _ (a + 1) i (by omega) hi]
    by_cases h1 : a + 1 ≤ i ∧ i - (a + 1) < vs.length
    · have h2 : a ≤ i ∧ i - a < (v :: vs).length := ⟨by omega, by simp only [List.length_cons]; omega⟩
      rw [dif_pos h1, dif_pos h2]
      have : i - a = (i - (a + 1)) + 1 := by omega
      simp only [this, List.getElem_cons_succ]
    · rw [dif_neg h1]
      by_cases h2 : i = a
      · subst h2
        simp [put]
      · have h3 : ¬(a ≤ i ∧ i - a < (v :: vs).length) := by simp only [List.length_cons]; omega
        rw [dif_neg h3]
        have : ¬ (BitVec.ofNat 8 i : Byte) = BitVec.ofNat 8 a := by
          intro h
          have := congrArg BitVec.toNat h
          simp only [BitVec.toNat_ofNat] at this
          omega
        simp [put, this]

theorem modulation_of {w : Wish} {c : Held} {p : PktParams} (h : Good w c) (hu : w.up = true) (hp : w.setup = some p)
    (hc : commonPp p = true) : c.modulation = some (sfNum p.sf, 125, 5, decide (11 ≤ sfNum p.sf)) := by
  have h1 := h.modulation hu p hp
  have hsf : sfOf p.sf = sfNum p.sf := by cases p.sf <;> rfl
  unfold commonPp at hc
  simp only [Bool.and_eq_true, beq_iff_eq, Bool.not_eq_true', decide_eq_true_eq] at hc
  obtain ⟨⟨⟨⟨⟨c1, c2⟩, c3⟩, c4⟩, c5⟩, c6⟩ := hc
  rw [h1, hsf, c5, c1]
  rfl

theorem lastSetup_snoc (l : List DItem) (x : DItem) : lastSetup (l ++ [x]) = match x.op with | .setup p => some p | _ => lastSetup l := by
  unfold lastSetup
  rw [List.foldl_append]
  rfl

theorem packet_head {o : Bytes} {p : PacketCfg} (h : packetParams o = some p) : ∃ l, o = 0x8c :: l := by
  unfold packetParams at h
  split at h
  · exact ⟨_, rfl⟩
  · exact nomatch h

/-- **C96** (SX126x) When an uplink or join-request is accepted, and the radio's last initialisation had succeeded, the last command the chip has got
when the call returns is SetTx; it then holds exactly the frame in its transmit buffer, and is tuned and set as in C96 for the SX127x. -/
theorem C96_on_air (h : Device E step .zero (log ++ [e]) t' s') (hi : e.item = some it) (hs : sentItem it = true)
    (hu : (wish (calls log)).up = true) :
    ∃ l, bus (wire (calls (log ++ [e]))) = some l ∧
      (∀ c : Data, let c' := c.run l
        c'.last = [0x83, 0, 0, 0] ∧ txs it.ev = [c'.toSend] ∧ c'.pkt = some ⟨8, false, c'.toSend.length, true, false⟩) ∧
      ∀ (por : Nat → Byte) (c : Held), let c' := c.run por l
        c'.lora = true ∧
        (∃ i w, i < 16 ∧ (config E (items log)).on i = true ∧ c'.rf = some w ∧ tuned126 w ((config E (items log)).freq i)) ∧
        c'.modulation = some (12 - sentDr (config E (items log)) it.op, 125, 5, decide (11 ≤ 12 - sentDr (config E (items log)) it.op)) ∧
        c'.reg 0x740 = (if (wish (calls log)).isPublic then 0x34 else 0x14) ∧ c'.reg 0x741 = (if (wish (calls log)).isPublic then 0x44 else 0x24) := by
  obtain ⟨f, pp, pw, fr, d0, d1, d2, d3, x1, x2, x3, x4, S⟩ := h.sent hi hs
  obtain ⟨w1, w2, w3, w4, w5⟩ := S.linked
  have hh := h.hist
  rw [Device.items_snoc hi] at hh
  have hup : (wish (calls (log ++ [e]))).up = true := w3.trans hu
  have c3 : Calls step .zero (calls log ++ [x1, x2] ++ [x3]) d3 := by
    have := S.before.snoc (op := .setPower pw) trivial S.ex3
    obtain ⟨p3, t3, r3⟩ := x3
    have o3 := S.op3
    simp only at o3
    subst o3
    exact this
  obtain ⟨l0, hb0, -⟩ := C92_held (fun _ => 0) (.fresh fun _ => 0) c3
  have hset : lastSetup (calls log ++ [x1, x2] ++ [x3]) = some pp := by
    rw [lastSetup_snoc, S.op3, show calls log ++ [x1, x2] = calls log ++ [x1] ++ [x2] by simp, lastSetup_snoc, S.op2]
  obtain ⟨l4, w, rd, wrt, pkt, hb4, hw, hsent, hfix, hpkt⟩ := C77_transmits c3 hset S.len S.ex4
  have hb : bus (wire (calls (log ++ [e]))) = some (l0 ++ l4) := by
    have hw : wire (calls (log ++ [e])) = wire (calls log ++ [x1, x2] ++ [x3]) ++ x4.tr := by
      rw [calls_append, calls_one, S.calls, wire_append, wire_append]
      simp [wire]
    rw [hw]
    exact bus_append hb0 hb4
  refine ⟨l0 ++ l4, hb, fun c => ?_, fun por c => ?_⟩
  · intro c'
    have hcom := S.common.1
    unfold commonPp at hcom
    simp only [Bool.and_eq_true, beq_iff_eq, Bool.not_eq_true', decide_eq_true_eq] at hcom
    obtain ⟨⟨⟨⟨⟨q1, q2⟩, q3⟩, q4⟩, q5⟩, q6⟩ := hcom
    have hc' : c' = [rd, wrt, pkt, [0x8f, 0, 0], 0x0e :: 0 :: fr, [0x83, 0, 0, 0]].foldl Data.next (w.foldl Data.next (c.run l0)) := by
      show c.run (l0 ++ l4) = _
      rw [data_append]
      show (sent l4).foldl Data.next _ = _
      rw [hsent, List.foldl_append]
    generalize w.foldl Data.next (c.run l0) = c0 at hc'
    obtain ⟨pl, rfl⟩ := packet_head hpkt
    have hmem : c'.mem = fill (((c0.next rd).next wrt).next (0x8c :: pl)).mem 0 fr := by rw [hc']; rfl
    have hbase : c'.txBase = 0 := by rw [hc']; rfl
    have hpk : c'.pkt = some ⟨8, false, fr.length, true, false⟩ := by
      have : c'.pkt = packetParams (0x8c :: pl) := by rw [hc']; rfl
      rw [this, hpkt, q2, q3, q4, S.common.2]
      rfl
    have hlen := S.len
    have hto : c'.toSend = fr := by
      unfold Data.toSend
      rw [hpk, hbase, hmem]
      apply List.ext_getElem
      · simp
      · intro i h1 h2
        simp only [List.getElem_map, List.getElem_range]
        rw [show (0 : Byte) + BitVec.ofNat 8 i = BitVec.ofNat 8 i from BitVec.zero_add _, show (0 : Byte) = BitVec.ofNat 8 0 from rfl,
          fill_get fr _ 0 i (by omega) (by omega), dif_pos ⟨by omega, by omega⟩]
        rfl
    exact ⟨by rw [hc']; rfl, by rw [hto]; exact S.txs, by rw [hto]; exact hpk⟩
  · intro c'
    obtain ⟨l5, hb5, G⟩ := C92_held por c h.calls
    rw [hb] at hb5; injection hb5 with hb5; subst hb5
    obtain ⟨i, i1, i3, -, i4⟩ := C16_enabled hh hs
    have hband := C15_band h.hist f (by
      rw [Device.items_snoc hi, trace_append, trace_one]
      exact List.mem_append_right _ S.asked)
    obtain ⟨n, n1, n2⟩ := G.freq hup f w1 (by omega)
    have hfi : f.toNat = (config E (items log)).freq i := by
      rw [← Device.items_snoc hi, S.freq.1] at i4
      exact i4
    refine ⟨G.lora hup, ⟨i, n, i1, i3, n1, by rw [← hfi]; exact n2⟩, ?_, ?_⟩
    · rw [← S.sf]; exact modulation_of G hup w2 S.common.1
    · rw [← w4]; exact G.sync hup

/-- **C96** (SX126x) A gateway that hears the chip gets the bytes passed to `uwan_send_frame`, under the session's address, counter and
keys. -/
theorem C96_uplink {port : Byte} {pld : Bytes} {c : Bool} {rnd : Nat} (h : Device E step .zero (log ++ [e]) t' s') (hi : e.item = some it)
    (hop : it.op = .send port pld c rnd) (hr : it.ret = .err .no) (hu : (wish (calls log)).up = true) :
    ∃ l, bus (wire (calls (log ++ [e]))) = some l ∧ ∀ chip : Data,
      ∃ f, parse (chip.run l).toSend = some f ∧ f.mtype = (if c then 4 else 2) ∧ f.devAddr = (view E (items log)).addr ∧
        f.fCnt = (view E (items log)).up % 65536 ∧ f.port = (if pld = [] then none else some port.toNat) ∧
        crypt E (view E (items log)).app 0 (view E (items log)).addr (view E (items log)).up f.payload = pld ∧
        f.mic = dataMic E (view E (items log)).nwk 0 (view E (items log)).addr (view E (items log)).up (signed (chip.run l).toSend) := by
  have hs : sentItem it = true := by unfold sentItem; rw [hop, hr]; rfl
  have hh := h.hist
  rw [Device.items_snoc hi] at hh
  obtain ⟨l, hb, hl, -⟩ := C96_on_air h hi hs hu
  obtain ⟨fr, f, h1, h2, h3, -, -, h4, h5, -, -, h6, -, h7⟩ := C01_uplink_frame hh hop hr
  obtain ⟨fr2, f2, g1, g2, g3⟩ := C02_payload_decrypts hh hop hr
  rw [h1] at g1; injection g1 with g1 _; subst g1
  rw [h2] at g2; injection g2 with g2; subst g2
  refine ⟨l, hb, fun chip => ?_⟩
  have := (hl chip).2.1
  rw [h1] at this
  injection this with this _
  rw [← this]
  exact ⟨f, h2, h3, h4, h5, h6, g3, h7⟩

/-- A join-request as handed over by the stack is what a gateway hears. -/
theorem C96_join {r1 r2 : Nat} (h : Device E step .zero (log ++ [e]) t' s') (hi : e.item = some it)
    (hop : it.op = .join r1 r2) (hr : it.ret = .err .no) (hu : (wish (calls log)).up = true) :
    ∃ l, bus (wire (calls (log ++ [e]))) = some l ∧ ∀ chip : Data,
      (chip.run l).toSend = joinRequest E (view E (items log)).appKey (view E (items log)).appEui (view E (items log)).devEui.reverse (r2 % 65536) := by
  have hs : sentItem it = true := by unfold sentItem; rw [hop, hr]; rfl
  have hh := h.hist
  rw [Device.items_snoc hi] at hh
  obtain ⟨l, hb, hl, -⟩ := C96_on_air h hi hs hu
  refine ⟨l, hb, fun chip => ?_⟩
  have := (hl chip).2.1
  rw [(C38_join_request hh r1 r2 hop hr).1] at this
  injection this with this _
  exact this.symm

/- Three bytes at SF7. -/
example : ∃ x : Played St, Device Tests.xorEnv step .zero (x.log ++ [x.e]) x.s x.d ∧ x.e.item = some x.it ∧
    (sentItem x.it && (wish (calls x.log)).up && (sentDr (config Tests.xorEnv (items x.log)) x.it.op == 5)) = true :=
  of_played (chip := Sim126.chip) (t := .por) (devStart (some testOpts) [.setDr 5]) _ (by decide +kernel)

/- A join-request. -/
example : ∃ x : Played St, Device Tests.xorEnv step .zero (x.log ++ [x.e]) x.s x.d ∧ x.e.item = some x.it ∧
    (decide (x.it.ret = .err .no) && (wish (calls x.log)).up && (match x.it.op with | .join _ _ => true | _ => false)) = true :=
  of_played (chip := Sim126.chip) (t := .por) [.app (.init (some ⟨true, true, true⟩) (some testOpts)), .call (.init .eu868),
    .call (.setOtaaKeys Tests.devEui Tests.appEui Tests.appKey), .call (.join 3 4)] _ (by decide +kernel)

/-! ## Power -/

theorem opts_calls {l : List DItem} {s : St} (h : Calls step .zero l s) : s.opts.map (·.isHp) = highPower l := by
  induction h with
  | nil => rfl
  | @snoc log s s' op tr r hc hv e ih =>
    unfold highPower at *
    rw [List.foldl_append, ← ih]
    have hk := keep_step e
    cases op with
    | init h o => injection hk with h1 h2; rw [h2]; rfl
    | _ => injection hk with h1 h2; rw [h2]; rfl

theorem highPower_snoc (l : List DItem) (x : DItem) : highPower (l ++ [x]) = match x.op with | .init _ o => o.map (·.isHp) | _ => highPower l := by
  unfold highPower
  rw [List.foldl_append]
  rfl

/-- The powers the driver takes. -/
def takes (hp : Bool) (p : Int) : Prop := if hp then -9 ≤ p ∧ p ≤ 22 else -17 ≤ p ∧ p ≤ 15

/-- **C97** (SX126x) A frame goes out with exactly the configured power, maximum EIRP less 2 dB per power index, if it is within the chip's range: -9..22 dBm on
high-power chips, -17..15 dBm on others. Missing: outside of the range the driver refuses the power, the stack does not notice, and the frame goes
out with the power last accepted (`C97_refused`). -/
theorem C97_power_partial (h : Device E step .zero (log ++ [e]) t' s') (hi : e.item = some it) (hs : sentItem it = true)
    (hu : (wish (calls log)).up = true) {hp : Bool} (hh : highPower (calls log) = some hp) (ha : takes hp (asked E log)) :
    ∃ l, bus (wire (calls (log ++ [e]))) = some l ∧ ∀ (por : Nat → Byte) (c : Held),
      ∃ pa txp, (c.run por l).pa = some pa ∧ (c.run por l).txp = some txp ∧ paPower pa txp = some (asked E log) := by
  obtain ⟨f, pp, pw, fr, d0, d1, d2, d3, x1, x2, x3, x4, S⟩ := h.sent hi hs
  obtain ⟨w1, w2, w3, w4, w5⟩ := S.linked
  obtain ⟨l, hb, -⟩ := C92_held (fun _ => 0) (.fresh fun _ => 0) h.calls
  have hbd : -128 ≤ asked E log ∧ asked E log ≤ 127 := by unfold takes at ha; split at ha <;> omega
  have hpw : pw.toInt = asked E log := by rw [S.power, asked_pw E log hbd.1 hbd.2]
  have ho : highPower (calls log ++ [x1, x2]) = some hp := by
    rw [show calls log ++ [x1, x2] = calls log ++ [x1] ++ [x2] by simp, highPower_snoc, S.op2, highPower_snoc, S.op1]
    exact hh
  obtain ⟨o, o1, o2, -⟩ := C73_power S.ex3
  have := opts_calls S.before
  rw [o1, ho] at this
  have this : o.isHp = hp := by injection this
  have hr := (o2 (by rw [this, hpw]; exact ha)).1
  rw [if_pos hr] at w5
  refine ⟨l, hb, fun por c => ?_⟩
  obtain ⟨l5, hb5, G⟩ := C92_held por c h.calls
  rw [hb] at hb5; injection hb5 with hb5; subst hb5
  rw [← hpw]
  exact G.power (w3.trans hu) pw w5

/-- **C97** does not hold of the code (SX126x): outside of the range the frame goes out with the power last accepted since the initialisation. -/
theorem C97_refused (h : Device E step .zero (log ++ [e]) t' s') (hi : e.item = some it) (hs : sentItem it = true)
    (hu : (wish (calls log)).up = true) {hp : Bool} (hh : highPower (calls log) = some hp) (ha : ¬ takes hp (asked E log))
    (h8 : -128 ≤ asked E log ∧ asked E log ≤ 127) {q : BitVec 8} (hq : (wish (calls log)).power = some q) :
    ∃ l, bus (wire (calls (log ++ [e]))) = some l ∧ (∀ c : Data, (c.run l).last = [0x83, 0, 0, 0]) ∧ ∀ (por : Nat → Byte) (c : Held),
      ∃ pa txp, (c.run por l).pa = some pa ∧ (c.run por l).txp = some txp ∧ paPower pa txp = some q.toInt := by
  obtain ⟨f, pp, pw, fr, d0, d1, d2, d3, x1, x2, x3, x4, S⟩ := h.sent hi hs
  obtain ⟨w1, w2, w3, w4, w5⟩ := S.linked
  obtain ⟨l, hb, hl, -⟩ := C96_on_air h hi hs hu
  have hpw : pw.toInt = asked E log := by rw [S.power, asked_pw E log h8.1 h8.2]
  have ho : highPower (calls log ++ [x1, x2]) = some hp := by
    rw [show calls log ++ [x1, x2] = calls log ++ [x1] ++ [x2] by simp, highPower_snoc, S.op2, highPower_snoc, S.op1]
    exact hh
  obtain ⟨o, o1, -, o2⟩ := C73_power S.ex3
  have := opts_calls S.before
  rw [o1, ho] at this
  have this : o.isHp = hp := by injection this
  have hr := (o2 (by rw [this, hpw]; exact ha)).1
  rw [hr, if_neg (by simp), hq] at w5
  refine ⟨l, hb, fun c => (hl c).1, fun por c => ?_⟩
  obtain ⟨l5, hb5, G⟩ := C92_held por c h.calls
  rw [hb] at hb5; injection hb5 with hb5; subst hb5
  exact G.power (w3.trans hu) q w5

/- 14 dBm, the default, on a high-power chip. -/
example : ∃ x : Played St, Device Tests.xorEnv step .zero (x.log ++ [x.e]) x.s x.d ∧ x.e.item = some x.it ∧
    (sentItem x.it && (wish (calls x.log)).up && decide (highPower (calls x.log) = some true ∧ asked Tests.xorEnv x.log = 14)) = true :=
  of_played (chip := Sim126.chip) (t := .por) (devStart (some testOpts) [.setDr 5]) _ (by decide +kernel)

/-- **C97** does not hold of the code (SX126x): the application asks for 23 dBm and the frame goes out with 14. -/
theorem C97_wrong : ∃ (log : List Entry) (e : Entry) (it : Item) (t' : Uwan.St) (s' : St), Device Tests.xorEnv step .zero (log ++ [e]) t' s' ∧
    e.item = some it ∧ sentItem it = true ∧ (wish (calls log)).up = true ∧ asked Tests.xorEnv log = 23 ∧
    ∃ l, bus (wire (calls (log ++ [e]))) = some l ∧ (∀ c : Data, (c.run l).last = [0x83, 0, 0, 0]) ∧ ∀ (por : Nat → Byte) (c : Held),
      ∃ pa txp, (c.run por l).pa = some pa ∧ (c.run por l).txp = some txp ∧ paPower pa txp = some 14 := by
  obtain ⟨x, h1, h2, h3⟩ := of_played (E := Tests.xorEnv) (dstep := step) (z := .zero) (chip := Sim126.chip) (t := .por) dev126Loud (fun x =>
    sentItem x.it && (wish (calls x.log)).up && decide (asked Tests.xorEnv x.log = 23) &&
      (decide (highPower (calls x.log) = some true) && decide ((wish (calls x.log)).power = some 14))) (by decide +kernel)
  simp only [Bool.and_eq_true, decide_eq_true_eq] at h3
  obtain ⟨⟨⟨k1, k2⟩, k3⟩, k4, k5⟩ := h3
  obtain ⟨l, hb, hl, hg⟩ := C97_refused h1 h2 k1 k2 k4 (by unfold takes; rw [k3]; decide) (by omega) k5
  exact ⟨x.log, x.e, x.it, x.s, x.d, h1, h2, k1, k2, k3, l, hb, hl, hg⟩

/-! ## Receive windows -/

theorem setup_kept : ∀ (l : List DItem) {p : PktParams}, (wish l).setup = some p → lastSetup l = some p := by
  intro l p
  suffices ∀ (l : List DItem) (w : Wish) (q : Option PktParams), (∀ p, w.setup = some p → q = some p) →
      ∀ p, (l.foldl Wish.next w).setup = some p → l.foldl (fun q (x : DItem) => match x.op with | .setup p => some p | _ => q) q = some p from
    this l ⟨false, none, none, none, true⟩ none (fun _ h => nomatch h) p
  intro l
  induction l with
  | nil => exact fun w q h p hp => h p hp
  | cons x l ih =>
    intro w q h p hp
    refine ih (w.next x) _ (fun p' hp' => ?_) p hp
    unfold Wish.next at hp'
    split at hp'
    · exact nomatch hp'
    · rename_i heq; simp only [heq]; exact h p' hp'
    · rename_i heq; simp only [heq]; split at hp' <;> exact h p' hp'
    · rename_i heq; simp only [heq]; exact hp'
    · rename_i heq; simp only [heq]; exact h p' hp'
    · rename_i h1 h2 h3 h4 h5
      have : (match x.op with | .setup p => some p | _ => q) = q := by
        split
        · rename_i heq; exact absurd heq (h4 _)
        · rfl
      exact this.trans (h p' hp')

/-- **C98** (SX126x) When a receive window opens, and the radio's last initialisation succeeded and was before the transmission, the last command is SetRx for
a single reception, with a symbol timeout of 8, and the chip is tuned and set as in C98 for the SX127x. -/
theorem C98_window (h : Device E step .zero (log ++ [e]) t' s') (hi : e.item = some it) (hl : listens it.ev = true)
    (hu : (wish (calls log)).up = true) (hs : settled log = true) :
    ∃ l k g, bus (wire (calls (log ++ [e]))) = some l ∧
      (∀ c : Data, rxTimeout (c.run l).last = some 0 ∧ (c.run l).symb = 8 ∧ (c.run l).pkt = some ⟨8, false, 255, true, true⟩) ∧
      (∀ (por : Nat → Byte) (c : Held), let c' := c.run por l
        c'.lora = true ∧ (∃ w, c'.rf = some w ∧ tuned126 w g) ∧ c'.modulation = some (k, 125, 5, decide (11 ≤ k)) ∧
        c'.reg 0x740 = (if (wish (calls log)).isPublic then 0x34 else 0x14) ∧ c'.reg 0x741 = (if (wish (calls log)).isPublic then 0x44 else 0x24)) ∧
      ((stage (trace (items log)) = .rx1 ∧ g = (radio (trace (items log))).txFreq ∧
          ∃ a x b p, items log = a ++ [x] ++ b ∧ stage (trace a) = .tx ∧ stage (trace (a ++ [x])) = .rx1 ∧ (∀ y ∈ b, sentItem y = false) ∧
            (radio (trace (items log))).txPp = some p ∧ ((config E a).off = 0 → k = sfNum p.sf)) ∨
        (stage (trace (items log)) = .rx2 ∧
          ∃ a x b, items log = a ++ [x] ++ b ∧ stage (trace a) = .rx1 ∧ stage (trace (a ++ [x])) = .rx2 ∧ (∀ y ∈ b, sentItem y = false) ∧
            g = (config E a).rx2Freq ∧ k = 12 - (config E a).rx2Dr)) := by
  obtain ⟨d0, x, L⟩ := h.listens hi hl
  obtain ⟨t0, d1, h0⟩ := h.init
  have K := h0.linked hs
  obtain ⟨p, p1, p2, p3⟩ := L.pp
  obtain ⟨f, f1, f2⟩ := K.freq
  have hsetup := K.setup
  rw [p1] at hsetup
  have hup : (wish (calls (log ++ [e]))).up = true := by rw [L.wish]; exact hu
  obtain ⟨l0, hb0, -⟩ := C92_held (fun _ => 0) (.fresh fun _ => 0) L.before
  obtain ⟨l4, w, rd, wrt, pkt, sy, cmd, hb4, hw, hsent, hfix, hsy, hpkt, hcmd⟩ := C84_receives L.before (setup_kept _ hsetup) (.inl (by decide)) L.ex
  have hb : bus (wire (calls (log ++ [e]))) = some (l0 ++ l4) := by
    have hw : wire (calls (log ++ [e])) = wire (calls log) ++ x.tr := by
      rw [calls_append, calls_one, L.calls, wire_append]
      simp [wire]
    rw [hw]
    exact bus_append hb0 hb4
  have hh := h.hist
  rw [Device.items_snoc hi] at hh
  have hband : f.toNat ≤ 4095000000 := by
    rcases radio_freq (trace (items log)) with h0' | ⟨g, hg1, hg2⟩
    · omega
    · have := C15_band h0.hist g hg1
      omega
  refine ⟨l0 ++ l4, sfNum p.sf, (radio (trace (items log))).freq, hb, fun c => ?_, fun por c => ?_, windows_of h0.hist hh hl p1⟩
  · have hc' : c.run (l0 ++ l4) = [rd, wrt, pkt, [0xa0, sy], [0x8f, 0, 0], cmd].foldl Data.next (w.foldl Data.next (c.run l0)) := by
      rw [data_append]
      show (sent l4).foldl Data.next _ = _
      rw [hsent, List.foldl_append]
    generalize w.foldl Data.next (c.run l0) = c0 at hc'
    obtain ⟨pl, rfl⟩ := packet_head hpkt
    obtain ⟨b2, b1, b0, rfl⟩ : ∃ b2 b1 b0, cmd = [0x82, b2, b1, b0] := by
      unfold rxTimeout at hcmd
      split at hcmd
      · exact ⟨_, _, _, rfl⟩
      · exact nomatch hcmd
    have k1 : (c.run (l0 ++ l4)).last = [0x82, b2, b1, b0] := by rw [hc']; rfl
    have k2 : (c.run (l0 ++ l4)).symb = sy := by rw [hc']; rfl
    have k3 : (c.run (l0 ++ l4)).pkt = packetParams (0x8c :: pl) := by rw [hc']; rfl
    rw [k1, k2, k3, hcmd, hpkt]
    have hcom := p2
    unfold commonPp at hcom
    simp only [Bool.and_eq_true, beq_iff_eq, Bool.not_eq_true', decide_eq_true_eq] at hcom
    obtain ⟨⟨⟨⟨⟨q1, q2⟩, q3⟩, q4⟩, q5⟩, q6⟩ := hcom
    refine ⟨by decide, BitVec.eq_of_toNat_eq hsy, ?_⟩
    rw [q2, q3, q4, p3]
    rfl
  · intro c'
    obtain ⟨l5, hb5, G⟩ := C92_held por c h.calls
    rw [hb] at hb5; injection hb5 with hb5; subst hb5
    rw [L.wish] at G
    obtain ⟨n, n1, n2⟩ := G.freq hu f f1 hband
    exact ⟨G.lora hu, ⟨n, n1, by rw [← f2]; exact n2⟩, modulation_of G hu hsetup p2, G.sync hu⟩

/- Both windows of an uplink. -/
example : ∃ x : Played St, Device Tests.xorEnv step .zero (x.log ++ [x.e]) x.s x.d ∧ x.e.item = some x.it ∧
    (listens x.it.ev && (wish (calls x.log)).up && settled x.log && decide (stage (trace (items x.log)) = .rx1)) = true :=
  of_played (chip := Sim126.chip) (t := .por) dev126Rx1 _ (by decide +kernel)

example : ∃ x : Played St, Device Tests.xorEnv step .zero (x.log ++ [x.e]) x.s x.d ∧ x.e.item = some x.it ∧
    (listens x.it.ev && (wish (calls x.log)).up && settled x.log && decide (stage (trace (items x.log)) = .rx2)) = true :=
  of_played (chip := Sim126.chip) (t := .por) dev126Rx2 _ (by decide +kernel)

/-! ## Downlinks -/

/-- **C99** (SX126x) What the stack makes of an interrupt in a receive window is what the chip has to say: its flags Timeout, RxDone and
CrcErr decide between time-out, damaged packet and packet, and the packet is the one in the chip's buffer. -/
theorem C99_received (h : Device E step .zero (log ++ [e]) t' s') (hi : e.item = some it) {mk : Byte} {o : Oracle} (hop : it.op = .event mk o)
    (hw : stage (trace (items log)) = .rx1 ∨ stage (trace (items log)) = .rx2) :
    ∃ x rest l1 l2 w b1 b0, e.calls = x :: rest ∧ bus x.tr = some l1 ∧ Woken w ∧ sent l1 = w ++ [[0x12, 0xff, 0xff, 0xff], [0x02, b1, b0]] ∧
      (∃ a0 a1, Bus.frame [0x12, 0xff, 0xff, 0xff] [a0, a1, b1, b0] ∈ l1) ∧ bus (wire rest) = some l2 ∧
      ∀ n off mem, buffered n off mem l2 → outcome (items log) it =
        if (flags126 b1 b0).timeout then if stage (trace (items log)) = .rx2 then .timeout else .none
        else if (flags126 b1 b0).rxDone then
          if (flags126 b1 b0).crcError then .crc else .packet ((List.range n.toNat).map fun i => mem (off + BitVec.ofNat 8 i))
        else .none := by
  obtain ⟨s, d0, d1, x, l, R⟩ := h.event hi hop
  obtain ⟨lx, w, b1, b0, m', hb, hwk, hsent, hfr, -, hm, hrep⟩ := C78_interrupts R.ex
  have hmm : m' = mk := by
    rw [reported_handled hb, R.handled] at hrep
    split at hrep
    · injection hrep with hrep _; exact hrep.symm
    · exact nomatch hrep
  subst hmm
  obtain ⟨k1, k2, k3⟩ := mask_of hm
  obtain ⟨l2, hb2⟩ := Option.isSome_iff_exists.1
    (R.runs.framed (dop_valid (op := .event _ _) R.before.hist trivial R.step) fun _ e => C80_framed e)
  refine ⟨x, l, lx, l2, w, b1, b0, R.calls, hb, hwk, hsent, hfr, hb2, fun n off mem ha => ?_⟩
  have hval : ∀ {b : Bytes}, (flags126 b1 b0).timeout = false → (flags126 b1 b0).rxDone = true → (flags126 b1 b0).crcError = false →
      o.rxData.take 255 = b → outcome (items log) it = .packet b := by
    intro b t1 t2 t3 hb
    unfold outcome
    rw [hop]
    simp only
    rw [if_pos hw]
    simp [k1, k2, k3, t1, t2, t3, hb]
  by_cases t1 : (flags126 b1 b0).timeout = true
  · unfold outcome
    rw [hop]
    simp only
    rw [if_pos hw]
    simp [k1, t1]
  by_cases t2 : (flags126 b1 b0).rxDone = true
  rotate_left
  · unfold outcome
    rw [hop]
    simp only
    rw [if_pos hw]
    simp [k1, k2, t1, t2]
  by_cases t3 : (flags126 b1 b0).crcError = true
  · unfold outcome
    rw [hop]
    simp only
    rw [if_pos hw]
    simp [k1, k2, k3, t1, t2, t3]
  simp only [t1, t2, t3, if_true, Bool.false_eq_true, if_false]
  have hout := hval (by simpa using t1) t2 (by simpa using t3) rfl
  have hops := (packet_ops R.before.hist R.step hop hout s.frame).1
  have hr := R.runs
  rw [hops] at hr
  cases hr with
  | @cons _ dd _ _ _ tr r l' e1 hr =>
    have hsh := R.shows _ List.mem_cons_self
    obtain ⟨lp, w', p, st, data, ps, a0, a1, n', off', c0, c1, c2, vs, _, _, _, _, _, hbp, -, -, hst, hf1, hdata, hf2, -, -, hret, hsz, hbuf, hvs, -⟩ :=
      C79_reads e1
    obtain ⟨l3, hb3⟩ := Option.isSome_iff_exists.1 (hr.framed (fun o ho => by rw [List.mem_singleton.1 ho]; trivial) fun _ e => C80_framed e)
    have h2 : wire (⟨.readPacket s.frame, tr, r⟩ :: l') = tr ++ wire l' := rfl
    rw [h2, bus_append hbp hb3] at hb2
    injection hb2 with hb2
    subst hb2
    have g1 := ha _ _ (List.mem_append_left _ hf1)
    have g2 := ha _ _ (List.mem_append_left _ hf2)
    rw [hst] at g1
    rw [hdata] at g2
    simp only [List.drop] at g1 g2
    injection g1 with g1 g1'
    injection g1' with g1' _
    subst g1 g1' hret
    simp only [DItem.shows] at hsh
    rw [R.frame] at hsz
    have hn : n'.toNat < 256 := n'.isLt
    refine hval (by simpa using t1) t2 (by simpa using t3) ?_
    rw [hsh.1, hbuf, ← hvs, List.take_left, List.take_of_length_le (by omega), g2]
    congr 1
    simp only [List.length_cons]
    congr 1
    omega

/-- **C99** (SX126x) A downlink built by the network for this session, with a counter in step, and received by the chip without CRC error in a
receive window, is delivered to the application as built. -/
theorem C99_delivered (h : Device E step .zero (log ++ [e]) t' s') (hi : e.item = some it) {mk : Byte} {o : Oracle} (hop : it.op = .event mk o)
    (hw : stage (trace (items log)) = .rx1 ∨ stage (trace (items log)) = .rx2) (D : Downlink) (cnt : Nat)
    (hj : (config E (items log)).joining = false) (hf : D.fOpts.length ≤ 15) (hs : inStep (config E (items log)).down cnt) :
    ∃ x rest l1 l2 w b1 b0, e.calls = x :: rest ∧ bus x.tr = some l1 ∧ Woken w ∧ sent l1 = w ++ [[0x12, 0xff, 0xff, 0xff], [0x02, b1, b0]] ∧
      (∃ a0 a1, Bus.frame [0x12, 0xff, 0xff, 0xff] [a0, a1, b1, b0] ∈ l1) ∧ bus (wire rest) = some l2 ∧
      ∀ n off mem, buffered n off mem l2 → (flags126 b1 b0).timeout = false → (flags126 b1 b0).rxDone = true → (flags126 b1 b0).crcError = false →
      ((List.range n.toNat).map fun i => mem (off + BitVec.ofNat 8 i)) =
        D.build E (view E (items log)).nwk (view E (items log)).app (view E (items log)).addr cnt →
      ∃ mt, results it.ev = [(.no, mt, D.shown o.rssi o.snr)] ∧ mt.toNat = (if D.confirmed then 5 else 3) := by
  obtain ⟨x, rest, l1, l2, w, b1, b0, h1, h2, h3, h4, h5, h6, h7⟩ := C99_received h hi hop hw
  refine ⟨x, rest, l1, l2, w, b1, b0, h1, h2, h3, h4, h5, h6, fun n off mem ha f1 f2 f3 hr => ?_⟩
  have ho := h7 n off mem ha
  simp only [f1, f2, f3, Bool.false_eq_true, if_false, if_true, hr] at ho
  have hh := h.hist
  rw [Device.items_snoc hi] at hh
  obtain ⟨m', o', mt, k1, k2, k3, -⟩ := C28_genuine hh D cnt ho hj hf hs
  rw [hop] at k1
  injection k1 with _ k1
  subst k1
  exact ⟨mt, k2, k3⟩

/- A confirmed downlink with a counter of 9, an option and three bytes of payload, at offset 16 of the buffer. -/
example : ∃ x : Played St, Device Tests.xorEnv step .zero (x.log ++ [x.e]) x.s x.d ∧ x.e.item = some x.it ∧
    (decide (stage (trace (items x.log)) = .rx2) && !(config Tests.xorEnv (items x.log)).joining && decide ((config Tests.xorEnv (items x.log)).down < 9) &&
      (match x.it.op with | .event _ _ => true | _ => false) &&
      onBus x.e.calls.tail (fun l =>
        let mem : Byte → Byte := fun a => devFrame.getD (a.toNat - 16) 0
        (l.all fun b => match b with
          | .frame (0x13 :: _) i => decide (i.drop 2 = [17, 16])
          | .frame (0x1e :: a :: _) i => decide (i.drop 3 = (List.range (i.length - 3)).map fun k => mem (a + BitVec.ofNat 8 k))
          | _ => true) &&
        decide (((List.range 17).map fun i => mem (16 + BitVec.ofNat 8 i)) =
          devDl.build Tests.xorEnv (view Tests.xorEnv (items x.log)).nwk (view Tests.xorEnv (items x.log)).app (view Tests.xorEnv (items x.log)).addr 9))) = true :=
  of_played (chip := Sim126.chip) (t := .por) dev126Dl _ (by decide +kernel)

/-! ## Sleep -/

/-- **C100** (SX126x) When the outcome of an exchange is reported, the chip sleeps. -/
theorem C100_asleep (h : Device E step .zero (log ++ [e]) t' s') (hi : e.item = some it) {er : Err} {mt : Byte} {p : DlPkt}
    (he : Ev.downlink er mt p ∈ it.ev) : ∃ l, bus (wire (calls (log ++ [e]))) = some l ∧ naps false l = some true := by
  obtain ⟨s, d0, d, pre, l, T⟩ := h.took hi
  obtain ⟨a, ha, -⟩ := report_ops T.before.hist T.step he s.frame
  have hr := T.runs
  rw [ha] at hr
  obtain ⟨l1, dx, x, rfl, hr1, ex⟩ := hr.last
  have hv : ∀ o ∈ a, o.Valid := fun o ho => dop_valid T.before.hist T.valid T.step o (by rw [ha]; exact List.mem_append_left _ ho)
  have : wire (calls (log ++ [e])) = wire (calls log ++ pre ++ l1) ++ x.tr := by
    rw [calls_append, calls_one, T.calls, ← List.append_assoc, ← List.append_assoc, wire_append]
    simp [wire]
  rw [this]
  exact C81_sleeps (hr1.calls hv T.mid) ex

/- The downlink above. -/
example : ∃ x : Played St, Device Tests.xorEnv step .zero (x.log ++ [x.e]) x.s x.d ∧ x.e.item = some x.it ∧
    (x.it.ev.any fun v => match v with | .downlink .no _ _ => true | _ => false) = true :=
  of_played (chip := Sim126.chip) (t := .por) dev126Dl _ (by decide +kernel)

/-! ## Undefined behaviour -/

theorem given_snoc (l : List DItem) (x : DItem) : given (l ++ [x]) = match x.op with | .init h o => h.isSome && o.isSome | _ => given l := by
  unfold given
  rw [List.foldl_append]
  rfl

theorem defined_of (ops : List DOp) (hv : ∀ o ∈ ops, o.Valid ∧ o.direct = false) : ∀ {l : List DItem} {s : St}, Calls step .zero l s → given l = true →
    Defined step s ops := by
  induction ops with
  | nil => exact fun _ _ => trivial
  | cons op ops ih =>
    intro l s h hl
    have h1 := hv op (by simp)
    refine ⟨C87_safe h hl h1.1, fun tr r s' ex => ?_⟩
    refine ih (fun o ho => hv o (by simp [ho])) (h.snoc h1.1 ex) ?_
    rw [given_snoc]
    cases op <;> first | exact hl | exact nomatch h1.2

/-- **C101** (SX126x) With the radio initialised, whatever is called next and whatever the chip answers, the driver calls made by the stack meet no undefined
behaviour, and neither does the stack. Missing: the exceptions of C61. -/
theorem C101_defined_partial (h : Device E step .zero log t s) (hl : given (calls log) = true) {op : Op} (hv : op.Valid) :
    (step s .irqHandler).Safe ∧
    ∀ s1, (op.isCall = true ∧ s1 = s ∨ ∃ tr r, Exec (step s .irqHandler) tr (r, s1)) →
      (∃ r t' ev, Uwan.step E t op = .ok (r, t', ev) ∧ Defined step s1 (ev.filterMap (Ev.dop t.frame))) ∨
      (Uwan.step E t op = .error .nullDeref ∧ stage (trace (items log)) = .tx ∧ (∃ m o, op = .event m o ∧ m.toNat / 4 % 2 = 1) ∧
        (config E (items log)).stamp = true ∧ (config E (items log)).cbs = none) := by
  refine ⟨C87_safe h.calls hl trivial, fun s1 hs1 => ?_⟩
  rcases C61_defined_partial h.hist hv with ⟨r, t', ev, hs, -⟩ | hx
  · left
    refine ⟨r, t', ev, hs, ?_⟩
    have ho : ∀ o ∈ ev.filterMap (Ev.dop t.frame), o.Valid ∧ o.direct = false := fun o ho => by
      refine ⟨dop_valid h.hist hv hs o ho, ?_⟩
      obtain ⟨x, _, hx⟩ := List.mem_filterMap.1 ho
      exact dop_direct hx
    rcases hs1 with ⟨-, rfl⟩ | ⟨tr, r', ex⟩
    · exact defined_of _ ho h.calls hl
    · refine defined_of _ ho (h.calls.snoc (op := .irqHandler) trivial ex) ?_
      rw [given_snoc]
      exact hl
  · exact .inr hx

/- In the second window. -/
example : ∃ x : Played St, Device Tests.xorEnv step .zero (x.log ++ [x.e]) x.s x.d ∧ x.e.item = some x.it ∧
    decide (given (calls (x.log ++ [x.e])) = true ∧ (Op.event 2 noPkt).Valid) = true :=
  of_played (chip := Sim126.chip) (t := .por) dev126Rx2 _ (by decide +kernel)

end Uwan.Sx126x
