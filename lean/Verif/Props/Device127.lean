import Verif.Tests.DeviceTests
import Verif.Lemmas.Device
import Verif.Props.Sx127x
import Verif.Props.Safety
import Verif.Props.Downlink
import Verif.Props.Join
import Verif.Props.Adr

/-! # The stack on an SX127x: from the API to the chip and back (C96 to C102) -/

namespace Uwan.Sx127x
open Spec

variable {E : Env} {log : List Entry} {e : Entry} {it : Item} {s s' : St} {t t' : Uwan.St}

theorem lastInit_of_up : ∀ (l : List DItem), (wish l).up = true → lastInit l = some (.bool true) := by
  intro l
  suffices ∀ (l : List DItem) (w : Wish), (l.foldl Wish.next w).up = true → lastInit l = some (.bool true) ∨ (lastInit l = none ∧ w.up = true) by
    intro h
    rcases this l _ h with h | ⟨_, h⟩
    · exact h
    · exact nomatch h
  intro l
  induction l with
  | nil => intro w h; exact .inr ⟨rfl, h⟩
  | cons x l ih =>
    intro w h
    rcases ih (w.next x) h with h | ⟨h1, h2⟩
    · left; simp only [lastInit, h]
    · simp only [lastInit, h1]
      unfold Wish.next at h2
      split at h2
      · simp only [decide_eq_true_eq] at h2
        rename_i heq
        left
        simp only [heq, h2]
      all_goals
        rename_i heq
        right
        simp only [heq]
        exact ⟨trivial, by first | exact h2 | (split at h2 <;> exact h2)⟩

theorem lorawan_of {w : Wish} {c : Chip} {p : PktParams} {b : Bool} (h : Good w c) (hu : w.up = true) (hp : w.setup = some p)
    (hc : commonPp p = true) (hb : p.invertedIq = b) : c.LoRaWan (sfNum p.sf) b := by
  obtain ⟨h1, h2, h3, h4, h5, h6, h7, h8, h9⟩ := h.setup hu p hp
  have hsf : sfOf p.sf = sfNum p.sf := by cases p.sf <;> rfl
  unfold commonPp at hc
  simp only [Bool.and_eq_true, beq_iff_eq, Bool.not_eq_true', decide_eq_true_eq] at hc
  obtain ⟨⟨⟨⟨⟨c1, c2⟩, c3⟩, c4⟩, c5⟩, c6⟩ := hc
  refine ⟨h1.trans hsf, ?_, ?_, h4.trans c4, h5.trans c3, ?_, ?_, h9⟩
  · rw [h2, c5]; rfl
  · rw [h3, c1]; rfl
  · rw [h6, hb]
  · rw [h7, hsf]

theorem toSend_of {c : Chip} {fr : Bytes} (hl : (c.reg 0x22).toNat = fr.length) (hb : c.reg 0x0e = 0)
    (hm : ∀ i (hi : i < fr.length), c.mem (BitVec.ofNat 8 i) = fr[i]) : c.toSend = fr := by
  unfold Chip.toSend
  rw [hl, hb]
  apply List.ext_getElem
  · simp
  · intro i h1 h2
    simp only [List.getElem_map, List.getElem_range]
    rw [show (0 : Byte) + BitVec.ofNat 8 i = BitVec.ofNat 8 i from BitVec.zero_add _]
    exact hm i h2

/-- **C96** (SX127x) When an uplink or join-request is accepted, and the radio's last initialisation had succeeded, the chip is in LoRa TX mode
when the call returns; it holds exactly the frame in its transmit buffer, is tuned to an enabled channel, and is set to the data rate of the frame,
normal IQ and the sync word chosen, and it will signal TxDone on DIO0 and nothing else. -/
theorem C96_on_air (h : Device E step .zero (log ++ [e]) t' s') (hi : e.item = some it) (hs : sentItem it = true)
    (hu : (wish (calls log)).up = true) :
    ∃ l, bus (wire (calls (log ++ [e]))) = some l ∧
      (∀ m : OpMode, (m.run (regs l)).mode = 3 ∧ (m.Honest (regs l) → (m.run (regs l)).lora = true ∧ (m.run (regs l)).shared = false)) ∧
      ∀ c : Chip, c.Honest [0x1e] (regs l) → let c' := c.run (regs l)
        txs it.ev = [c'.toSend] ∧
        (∃ i, i < 16 ∧ (config E (items log)).on i = true ∧ tuned127 c'.frf ((config E (items log)).freq i)) ∧
        c'.LoRaWan (12 - sentDr (config E (items log)) it.op) false ∧
        c'.reg 0x39 = (if (wish (calls log)).isPublic then 0x34 else 0x14) ∧
        (∀ b, b < 8 → (c'.reg 0x11).getLsbD b = decide (b ≠ 3)) ∧ c'.dio 0 = 1 ∧
        (c.por 0x20 = 0 → c.por 0x21 = 8 → c.preamble = 8 → c'.preamble = 8) := by
  obtain ⟨f, pp, pw, fr, d0, d1, d2, d3, x1, x2, x3, x4, S⟩ := h.sent hi hs
  obtain ⟨w1, w2, w3, w4, w5⟩ := S.linked
  have hh := h.hist
  rw [Device.items_snoc hi] at hh
  obtain ⟨l, hb, hg⟩ := C93_held h.calls
  have hup : (wish (calls (log ++ [e]))).up = true := w3.trans hu
  obtain ⟨l2, hb2, hl2⟩ := C82_lora h.calls
  rw [hb] at hb2; injection hb2 with hb2; subst hb2
  obtain ⟨l3, hb3, hl3⟩ := C91_preamble_partial h.calls w2 (by
    have := S.common.1
    unfold commonPp at this
    simp only [Bool.and_eq_true, beq_iff_eq] at this
    exact this.1.1.1.1.2)
  rw [hb] at hb3; injection hb3 with hb3; subst hb3
  -- the last call
  have c3 : Calls step .zero (calls log ++ [x1, x2, x3]) d3 := by
    have := S.before.snoc (op := .setPower pw) trivial S.ex3
    obtain ⟨p3, t3, r3⟩ := x3
    have o3 := S.op3
    simp only at o3
    subst o3
    simpa using this
  obtain ⟨l0, hb0, -⟩ := C93_held c3
  obtain ⟨l4, hb4, ⟨pre, v, hr1, hr2, hr3⟩, hl4⟩ := C76_transmits S.len S.ex4
  have hsplit : l = l0 ++ l4 := by
    have hw : wire (calls (log ++ [e])) = wire (calls log ++ [x1, x2, x3]) ++ x4.tr := by
      rw [calls_append, calls_one, S.calls, wire_append, wire_append]
      simp [wire]
    rw [hw, bus_append hb0 hb4] at hb
    injection hb with hb
    exact hb.symm
  refine ⟨l, hb, fun m => ⟨?_, hl2 (lastInit_of_up _ hup) m⟩, fun c hc => ?_⟩
  · rw [hsplit, regs_append, mode_append, hr1, mode_append]
    exact hr2
  · intro c'
    have G := hg c hc
    have hc' : c' = (c.run (regs l0)).run (regs l4) := by
      show c.run (regs l) = _
      rw [hsplit, regs_append, chip_append]
    obtain ⟨k1, k2, k3, k4, k5, -⟩ := hl4 (c.run (regs l0))
    refine ⟨?_, ?_, ?_, ?_, ?_, ?_, ?_⟩
    · rw [S.txs, hc', toSend_of k3 k2 k1]
    · obtain ⟨i, i1, i2, i3, i4⟩ := C16_enabled hh hs
      refine ⟨i, i1, i2, ?_⟩
      rw [← i4, ← Device.items_snoc hi, S.freq.1]
      refine G.freq hup f w1 ?_
      have := C15_band h.hist f (by
        rw [Device.items_snoc hi, trace_append, trace_one]
        exact List.mem_append_right _ S.asked)
      omega
    · have := lorawan_of G hup w2 S.common.1 S.common.2
      rw [S.sf] at this
      exact this
    · rw [G.sync hup, w4]
    · rw [hc']; exact k4
    · rw [hc']; exact k5
    · intro p0 p1 p2
      have := hl3 c p0 p1 p2
      have h8 : pp.preambleLen = 8 := by
        have := S.common.1
        unfold commonPp at this
        simp only [Bool.and_eq_true, beq_iff_eq] at this
        exact this.1.1.1.1.2
      rw [h8] at this
      exact this

/-- **C96** (SX127x) A gateway that hears the chip gets the bytes passed to `uwan_send_frame`, under the session's address, counter and
keys. -/
theorem C96_uplink {port : Byte} {pld : Bytes} {c : Bool} {rnd : Nat} (h : Device E step .zero (log ++ [e]) t' s') (hi : e.item = some it)
    (hop : it.op = .send port pld c rnd) (hr : it.ret = .err .no) (hu : (wish (calls log)).up = true) :
    ∃ l, bus (wire (calls (log ++ [e]))) = some l ∧ ∀ chip : Chip, chip.Honest [0x1e] (regs l) →
      ∃ f, parse (chip.run (regs l)).toSend = some f ∧ f.mtype = (if c then 4 else 2) ∧ f.devAddr = (view E (items log)).addr ∧
        f.fCnt = (view E (items log)).up % 65536 ∧ f.port = (if pld = [] then none else some port.toNat) ∧
        crypt E (view E (items log)).app 0 (view E (items log)).addr (view E (items log)).up f.payload = pld ∧
        f.mic = dataMic E (view E (items log)).nwk 0 (view E (items log)).addr (view E (items log)).up
          (signed (chip.run (regs l)).toSend) := by
  have hs : sentItem it = true := by unfold sentItem; rw [hop, hr]; rfl
  have hh := h.hist
  rw [Device.items_snoc hi] at hh
  obtain ⟨l, hb, -, hl⟩ := C96_on_air h hi hs hu
  obtain ⟨fr, f, h1, h2, h3, -, -, h4, h5, -, -, h6, -, h7⟩ := C01_uplink_frame hh hop hr
  obtain ⟨fr2, f2, g1, g2, g3⟩ := C02_payload_decrypts hh hop hr
  rw [h1] at g1; injection g1 with g1 _; subst g1
  rw [h2] at g2; injection g2 with g2; subst g2
  refine ⟨l, hb, fun chip hc => ?_⟩
  have := (hl chip hc).1
  rw [h1] at this
  injection this with this _
  rw [← this]
  exact ⟨f, h2, h3, h4, h5, h6, g3, h7⟩

/-- A join-request as handed over by the stack is what a gateway hears. -/
theorem C96_join {r1 r2 : Nat} (h : Device E step .zero (log ++ [e]) t' s') (hi : e.item = some it)
    (hop : it.op = .join r1 r2) (hr : it.ret = .err .no) (hu : (wish (calls log)).up = true) :
    ∃ l, bus (wire (calls (log ++ [e]))) = some l ∧ ∀ chip : Chip, chip.Honest [0x1e] (regs l) →
      (chip.run (regs l)).toSend = joinRequest E (view E (items log)).appKey (view E (items log)).appEui (view E (items log)).devEui.reverse (r2 % 65536) := by
  have hs : sentItem it = true := by unfold sentItem; rw [hop, hr]; rfl
  have hh := h.hist
  rw [Device.items_snoc hi] at hh
  obtain ⟨l, hb, -, hl⟩ := C96_on_air h hi hs hu
  refine ⟨l, hb, fun chip hc => ?_⟩
  have := (hl chip hc).1
  rw [(C38_join_request hh r1 r2 hop hr).1] at this
  injection this with this _
  exact this.symm

/- Three bytes at SF7. -/
example : ∃ x : Played St, Device Tests.xorEnv step .zero (x.log ++ [x.e]) x.s x.d ∧ x.e.item = some x.it ∧
    (sentItem x.it && (wish (calls x.log)).up && (sentDr (config Tests.xorEnv (items x.log)) x.it.op == 5) &&
      onBus (calls (x.log ++ [x.e])) fun l => decide (chip127.Honest [0x1e] (regs l))) = true :=
  of_played (chip := Sim127.chip) (t := .por) (devStart none [.setDr 5]) _ (by decide +kernel)

/- A join-request; register 0x1e has not been read, so there is nothing to be honest about. -/
example : ∃ x : Played St, Device Tests.xorEnv step .zero (x.log ++ [x.e]) x.s x.d ∧ x.e.item = some x.it ∧
    (decide (x.it.ret = .err .no) && (wish (calls x.log)).up && (match x.it.op with | .join _ _ => true | _ => false) &&
      onBus (calls (x.log ++ [x.e])) fun l => (regs l).all fun r => match r with | .read 0x1e _ => false | _ => true) = true :=
  of_played (chip := Sim127.chip) (t := .por) [.app (.init (some ⟨true, true, true⟩) none), .call (.init .eu868),
    .call (.setOtaaKeys Tests.devEui Tests.appEui Tests.appKey), .call (.join 3 4)] _ (by decide +kernel)

/-! ## Power -/

/-- **C97** (SX127x) A frame goes out with the configured power, maximum EIRP less 2 dB per power index, to 0.2 dB, if that is -4..17 dBm. Missing:
outside of this range the driver refuses the power, the stack does not notice, and the frame goes out with the power of an earlier one
(`C97_refused`). -/
theorem C97_power_partial (h : Device E step .zero (log ++ [e]) t' s') (hi : e.item = some it) (hs : sentItem it = true)
    (hu : (wish (calls log)).up = true) (hp : -4 ≤ asked E log ∧ asked E log ≤ 17) :
    ∃ l, bus (wire (calls (log ++ [e]))) = some l ∧ ∀ c : Chip, c.Honest [0x1e] (regs l) →
      10 * asked E log - 2 ≤ (c.run (regs l)).power ∧ (c.run (regs l)).power ≤ 10 * asked E log + 2 := by
  obtain ⟨f, pp, pw, fr, d0, d1, d2, d3, x1, x2, x3, x4, S⟩ := h.sent hi hs
  obtain ⟨w1, w2, w3, w4, w5⟩ := S.linked
  obtain ⟨l, hb, hg⟩ := C93_held h.calls
  have hpw : pw.toInt = asked E log := by rw [S.power, asked_pw E log (by omega) (by omega)]
  have hr := ((C72_power S.ex3).1 (by omega)).1
  rw [if_pos hr] at w5
  refine ⟨l, hb, fun c hc => ?_⟩
  rw [← hpw]
  exact (hg c hc).power (w3.trans hu) pw w5

/-- **C97** does not hold of the code (SX127x): when -4..17 dBm is exceeded, sending a frame leaves the chip's power as it was. -/
theorem C97_refused (h : Device E step .zero (log ++ [e]) t' s') (hi : e.item = some it) (hs : sentItem it = true)
    (hp : ¬(-4 ≤ asked E log ∧ asked E log ≤ 17)) (h8 : -128 ≤ asked E log ∧ asked E log ≤ 127) :
    ∃ l1 l2, bus (wire (calls log)) = some l1 ∧ bus (wire (calls (log ++ [e]))) = some (l1 ++ l2) ∧
      (∃ pre v, regs l2 = pre ++ [.write 1 v] ∧ v.toNat % 8 = 3) ∧
      ∀ c : Chip, (c.run (regs (l1 ++ l2))).power = (c.run (regs l1)).power := by
  obtain ⟨f, pp, pw, fr, d0, d1, d2, d3, x1, x2, x3, x4, S⟩ := h.sent hi hs
  obtain ⟨t0, d4, h0⟩ := h.init
  have hpw : pw.toInt = asked E log := by rw [S.power, asked_pw E log h8.1 h8.2]
  obtain ⟨-, hz⟩ := C72_power S.ex3
  obtain ⟨-, htr, hd⟩ := hz (by rw [hpw]; exact hp)
  obtain ⟨l0, hb0, -⟩ := C93_held h0.calls
  obtain ⟨a1, k1, k2⟩ : ∃ l, bus x1.tr = some l ∧ ∀ c : Chip, (c.run (regs l)).reg 9 = c.reg 9 := by
    have hband := C15_band h.hist f (by
        rw [Device.items_snoc hi, trace_append, trace_one]
        exact List.mem_append_right _ S.asked)
    obtain ⟨l, g1, g2⟩ := C70_frequency (by omega) S.ex1
    exact ⟨l, g1, fun c => (g2 c).2.2 9 (by decide) (by decide) (by decide)⟩
  obtain ⟨a2, k3, k4⟩ : ∃ l, bus x2.tr = some l ∧ ∀ c : Chip, (c.run (regs l)).reg 9 = c.reg 9 := by
    have e := S.ex2
    obtain ⟨hal, hh⟩ := hal_of_exec e (by simp) (by simp) (by simp)
    simp only [step, hh] at e
    obtain ⟨u1, u2, _, hu, e1, e2⟩ := exec_bind e
    obtain ⟨rfl, _⟩ := exec_ret e2
    rw [hu, List.append_nil]
    suffices key : wr (setup hal pp) fun _ x => ∀ c : Chip, (c.run x).reg 9 = c.reg 9 from wr_exec key e1
    exact wr_setup fun v c => by simp [Chip.run, Chip.access, put]
  obtain ⟨a4, k5, ⟨pre, v, hr1, hr2, -⟩, k6⟩ := C76_transmits S.len S.ex4
  have hw : wire (calls (log ++ [e])) = wire (calls log) ++ (x1.tr ++ x2.tr ++ x4.tr) := by
    rw [calls_append, calls_one, S.calls, wire_append]
    simp [wire, htr]
  refine ⟨l0, a1 ++ a2 ++ a4, hb0, ?_, ⟨regs a1 ++ regs a2 ++ pre, v, ?_, hr2⟩, fun c => ?_⟩
  · rw [hw]
    exact bus_append hb0 (bus_append (bus_append k1 k3) k5)
  · rw [regs_append, regs_append, hr1]; simp
  · have : ∀ c1 c2 : Chip, c1.reg 9 = c2.reg 9 → c1.power = c2.power := by
      intro c1 c2 h
      simp only [Chip.power, h]
    apply this
    rw [regs_append, regs_append, regs_append, chip_append, chip_append, chip_append]
    obtain ⟨-, -, -, -, -, k7⟩ := k6 (((c.run (regs l0)).run (regs a1)).run (regs a2))
    rw [k7 9 (by decide), k4, k2]

/- 14 dBm, the default. -/
example : ∃ x : Played St, Device Tests.xorEnv step .zero (x.log ++ [x.e]) x.s x.d ∧ x.e.item = some x.it ∧
    (sentItem x.it && (wish (calls x.log)).up && decide (asked Tests.xorEnv x.log = 14)) = true :=
  of_played (chip := Sim127.chip) (t := .por) (devStart none [.setDr 5]) _ (by decide +kernel)

/-- **C97** does not hold of the code (SX127x): the application asks for 20 dBm and the frame goes out with 14. -/
theorem C97_wrong : ∃ (log : List Entry) (e : Entry) (it : Item) (t' : Uwan.St) (s' : St), Device Tests.xorEnv step .zero (log ++ [e]) t' s' ∧
    e.item = some it ∧ sentItem it = true ∧ (wish (calls log)).up = true ∧ asked Tests.xorEnv log = 20 ∧
    ∃ l, bus (wire (calls (log ++ [e]))) = some l ∧ ∀ c : Chip, c.Honest [0x1e] (regs l) → 138 ≤ (c.run (regs l)).power ∧ (c.run (regs l)).power ≤ 142 := by
  obtain ⟨x, h1, h2, h3⟩ := of_played (E := Tests.xorEnv) (dstep := step) (z := .zero) (chip := Sim127.chip) (t := .por) dev127Loud (fun x =>
    sentItem x.it && (wish (calls x.log)).up && decide (asked Tests.xorEnv x.log = 20) &&
      ((wish (calls (x.log ++ [x.e]))).up && decide ((wish (calls (x.log ++ [x.e]))).power = some 14))) (by decide +kernel)
  simp only [Bool.and_eq_true, decide_eq_true_eq] at h3
  obtain ⟨⟨⟨k1, k2⟩, k3⟩, k4, k5⟩ := h3
  obtain ⟨l, hb, hg⟩ := C93_held h1.calls
  exact ⟨x.log, x.e, x.it, x.s, x.d, h1, h2, k1, k2, k3, l, hb, fun c hc => (hg c hc).power k4 14 k5⟩

/-! ## Receive windows -/

/-- **C98** (SX127x) When a receive window opens, and the radio's last initialisation succeeded and was before the transmission, the chip is in single
reception mode when the call returns, for up to 8 symbols of preamble and 255 bytes from an empty FIFO, with the interrupts of reception and no others
enabled and routed to pins, on the right frequency, with the modem settings of downlinks:
in the first window the frequency of the transmission and, without data rate offset, its spreading factor; in the second the RX2 frequency
and data rate. -/
theorem C98_window (h : Device E step .zero (log ++ [e]) t' s') (hi : e.item = some it) (hl : listens it.ev = true)
    (hu : (wish (calls log)).up = true) (hs : settled log = true) :
    ∃ l k g, bus (wire (calls (log ++ [e]))) = some l ∧
      (∀ m : OpMode, (m.run (regs l)).mode = 6 ∧ (m.Honest (regs l) → (m.run (regs l)).lora = true ∧ (m.run (regs l)).shared = false)) ∧
      (∀ c : Chip, c.Honest [0x1e] (regs l) → let c' := c.run (regs l)
        tuned127 c'.frf g ∧ c'.LoRaWan k true ∧ c'.symbTimeout = 8 ∧ c'.reg 0x23 = 255 ∧
        (∀ b, b < 8 → (c'.reg 0x11).getLsbD b = decide (b ≠ 7 ∧ b ≠ 6 ∧ b ≠ 5)) ∧
        (c'.reg 0x0d = 0 ∧ c'.dio 0 = 0 ∧ c'.dio 1 = 0 ∧ c'.dio 3 = 2) ∧
        c'.reg 0x39 = (if (wish (calls log)).isPublic then 0x34 else 0x14)) ∧
      ((stage (trace (items log)) = .rx1 ∧ g = (radio (trace (items log))).txFreq ∧
          ∃ a x b p, items log = a ++ [x] ++ b ∧ stage (trace a) = .tx ∧ stage (trace (a ++ [x])) = .rx1 ∧ (∀ y ∈ b, sentItem y = false) ∧
            (radio (trace (items log))).txPp = some p ∧ ((config E a).off = 0 → k = sfNum p.sf)) ∨
        (stage (trace (items log)) = .rx2 ∧
          ∃ a x b, items log = a ++ [x] ++ b ∧ stage (trace a) = .rx1 ∧ stage (trace (a ++ [x])) = .rx2 ∧ (∀ y ∈ b, sentItem y = false) ∧
            g = (config E a).rx2Freq ∧ k = 12 - (config E a).rx2Dr)) := by
  obtain ⟨d0, x, L⟩ := h.listens hi hl
  obtain ⟨t0, d1, h0⟩ := h.init
  have K := h0.linked hs
  obtain ⟨p, p1, p2, p3⟩ := L.pp
  obtain ⟨f, f1, f2⟩ := K.freq
  have hsetup := K.setup
  rw [p1] at hsetup
  have hup : (wish (calls (log ++ [e]))).up = true := by rw [L.wish]; exact hu
  obtain ⟨l, hb, hg⟩ := C93_held h.calls
  obtain ⟨l2, hb2, hl2⟩ := C82_lora h.calls
  rw [hb] at hb2; injection hb2 with hb2; subst hb2
  obtain ⟨l0, hb0, -⟩ := C93_held L.before
  obtain ⟨l4, hb4, ⟨pre, v, hr1, hr2, -⟩, hl4⟩ := C86_receives L.ex
  have hsplit : l = l0 ++ l4 := by
    have hw : wire (calls (log ++ [e])) = wire (calls log) ++ x.tr := by
      rw [calls_append, calls_one, L.calls, wire_append]
      simp [wire]
    rw [hw, bus_append hb0 hb4] at hb
    injection hb with hb
    exact hb.symm
  have hh := h.hist
  rw [Device.items_snoc hi] at hh
  have hband : f.toNat ≤ 1023000000 := by
    rcases radio_freq (trace (items log)) with h0' | ⟨g, hg1, hg2⟩
    · omega
    · have := C15_band h0.hist g hg1
      omega
  refine ⟨l, sfNum p.sf, (radio (trace (items log))).freq, hb, fun m => ⟨?_, hl2 (lastInit_of_up _ hup) m⟩, fun c hc => ?_, ?_⟩
  · rw [hsplit, regs_append, mode_append, hr1, mode_append]
    exact hr2
  · intro c'
    have G := hg c hc
    rw [L.wish] at G
    have hc' : c' = (c.run (regs l0)).run (regs l4) := by
      show c.run (regs l) = _
      rw [hsplit, regs_append, chip_append]
    obtain ⟨k1, k2, k3, k4, -, -⟩ := hl4 (c.run (regs l0))
    refine ⟨?_, lorawan_of G hu hsetup p2 p3, ?_, ?_, ?_, ?_, G.sync hu⟩
    · rw [← f2]; exact G.freq hu f f1 hband
    · rw [hc']; exact k1
    · rw [hc']; exact k2
    · rw [hc']; exact k3
    · rw [hc']; exact k4
  · exact windows_of h0.hist hh hl p1

/- Both windows of an uplink. -/
example : ∃ x : Played St, Device Tests.xorEnv step .zero (x.log ++ [x.e]) x.s x.d ∧ x.e.item = some x.it ∧
    (listens x.it.ev && (wish (calls x.log)).up && settled x.log && decide (stage (trace (items x.log)) = .rx1)) = true :=
  of_played (chip := Sim127.chip) (t := .por) dev127Rx1 _ (by decide +kernel)

example : ∃ x : Played St, Device Tests.xorEnv step .zero (x.log ++ [x.e]) x.s x.d ∧ x.e.item = some x.it ∧
    (listens x.it.ev && (wish (calls x.log)).up && settled x.log && decide (stage (trace (items x.log)) = .rx2)) = true :=
  of_played (chip := Sim127.chip) (t := .por) dev127Rx2 _ (by decide +kernel)

/-! ## Downlinks -/

theorem pkt_received {ptr n snr rssi : Byte} {data : Bytes} (hl : data.length = n.toNat) (c : Chip)
    (hc : c.Honest [0x00, 0x10, 0x13] (pktRegs ptr n data snr rssi)) : data = c.received := by
  unfold pktRegs at hc
  rw [chip_honest_append, chip_honest_append] at hc
  obtain ⟨⟨h1, h2⟩, -⟩ := hc
  simp only [Chip.Honest] at h1
  obtain ⟨g1, g2, -⟩ := h1
  have g1 := g1 (by simp)
  have g2 := g2 (by simp)
  simp [Chip.access, put] at g1 g2
  have hd := chip_drain (by simp) data _ h2
  simp [Chip.run, Chip.access, put] at hd
  apply List.ext_getElem
  · simp [Chip.received, hl, g2]
  · intro i h1 h2
    rw [hd i h1]
    simp [Chip.received, g1]

/-- **C99** (SX127x) What the stack makes of an interrupt in a receive window is what the chip has to say: its flags RxTimeout, RxDone and
PayloadCrcError decide between time-out, damaged packet and packet, and the packet is the one in the chip's buffer. -/
theorem C99_received (h : Device E step .zero (log ++ [e]) t' s') (hi : e.item = some it) {mk : Byte} {o : Oracle} (hop : it.op = .event mk o)
    (hw : stage (trace (items log)) = .rx1 ∨ stage (trace (items log)) = .rx2) :
    ∃ l f rest, bus (wire e.calls) = some l ∧ regs l = .read 0x12 f :: rest ∧ ∀ c : Chip, c.Honest [0x00, 0x10, 0x13] (regs l) →
      outcome (items log) it =
        if (flags127 f).timeout then if stage (trace (items log)) = .rx2 then .timeout else .none
        else if (flags127 f).rxDone then if (flags127 f).crcError then .crc else .packet c.received
        else .none := by
  obtain ⟨s, d0, d1, x, l, R⟩ := h.event hi hop
  obtain ⟨lx, f, m', hb, -, -, hm, hrep, -, hregs⟩ := C78_interrupts R.ex
  have hmm : m' = mk := by
    rw [reported_handled hb, R.handled] at hrep
    split at hrep
    · injection hrep with hrep _; exact hrep.symm
    · exact nomatch hrep
  subst hmm
  obtain ⟨k1, k2, k3⟩ := mask_of hm
  have hwire : wire e.calls = x.tr ++ wire l := by rw [R.calls]; rfl
  obtain ⟨l2, hb2⟩ : ∃ l2, bus (wire l) = some l2 := by
    exact Option.isSome_iff_exists.1 (R.runs.framed (dop_valid (op := .event _ _) R.before.hist trivial R.step) fun hv e => C80_framed hv e)
  refine ⟨lx ++ l2, f, _, by rw [hwire]; exact bus_append hb hb2, by rw [regs_append, hregs]; rfl, fun c hc => ?_⟩
  rw [regs_append, chip_honest_append] at hc
  unfold outcome
  rw [hop]
  simp only
  rw [if_pos hw]
  simp only [k1, k2, k3]
  by_cases t1 : (flags127 f).timeout = true
  · simp [t1]
  by_cases t2 : (flags127 f).rxDone = true
  rotate_left
  · simp [t1, t2]
  by_cases t3 : (flags127 f).crcError = true
  · simp [t1, t2, t3]
  simp only [t1, t2, t3, if_true, Bool.false_eq_true, if_false]
  have hout : outcome (items log) it = .packet (o.rxData.take 255) := by
    unfold outcome
    rw [hop]
    simp only
    rw [if_pos hw]
    simp [k1, k2, k3, t1, t2, t3]
  have hops := (packet_ops R.before.hist R.step hop hout s.frame).1
  have hr := R.runs
  rw [hops] at hr
  cases hr with
  | @cons _ dd _ _ _ tr r l' e1 hr =>
    have hsh := R.shows _ List.mem_cons_self
    obtain ⟨hal, hh⟩ := hal_of_exec e1 (by simp) (by simp) (by simp)
    simp only [step, hh] at e1
    obtain ⟨p, e1, hx⟩ := exec_map e1
    injection hx with hx1 hx2
    obtain ⟨lp, hbp, ptr, n, data, snr, rssi, hl, hp, hrp⟩ := wr_exec (wr_readPacket (Q := fun p l => ∃ ptr n data snr rssi,
      data.length = min n.toNat s.frame.length ∧
      p.buf.take p.size = data ∧ l = pktRegs ptr n data snr rssi)
      fun ptr n data snr rssi hl => ⟨ptr, n, data, snr, rssi, hl, List.take_left, rfl⟩) e1
    rw [R.frame] at hl
    have hn : n.toNat < 256 := n.isLt
    subst hx1
    simp only [DItem.shows] at hsh
    rw [hsh.1, hp, List.take_of_length_le (by omega)]
    obtain ⟨l3, hb3⟩ := Option.isSome_iff_exists.1 (hr.framed (fun o ho => by rw [List.mem_singleton.1 ho]; trivial) fun hv e => C80_framed hv e)
    have h2 : wire (⟨.readPacket s.frame, tr, .pkt p⟩ :: l') = tr ++ wire l' := rfl
    rw [h2, bus_append hbp hb3] at hb2
    injection hb2 with hb2
    subst hb2
    have h3 := hc.2
    rw [regs_append, chip_honest_append, hrp] at h3
    rw [pkt_received (by omega) _ h3.1, hregs]
    simp [Chip.received, Chip.run, Chip.access, put]

/-- **C99** (SX127x) A downlink built by the network for this session, with a counter in step, and received by the chip without CRC error in a
receive window, is delivered to the application as built. -/
theorem C99_delivered (h : Device E step .zero (log ++ [e]) t' s') (hi : e.item = some it) {mk : Byte} {o : Oracle} (hop : it.op = .event mk o)
    (hw : stage (trace (items log)) = .rx1 ∨ stage (trace (items log)) = .rx2) (D : Downlink) (cnt : Nat)
    (hj : (config E (items log)).joining = false) (hf : D.fOpts.length ≤ 15) (hs : inStep (config E (items log)).down cnt) :
    ∃ l f rest, bus (wire e.calls) = some l ∧ regs l = .read 0x12 f :: rest ∧ ∀ c : Chip, c.Honest [0x00, 0x10, 0x13] (regs l) →
      (flags127 f).timeout = false → (flags127 f).rxDone = true → (flags127 f).crcError = false →
      c.received = D.build E (view E (items log)).nwk (view E (items log)).app (view E (items log)).addr cnt →
      ∃ mt, results it.ev = [(.no, mt, D.shown o.rssi o.snr)] ∧ mt.toNat = (if D.confirmed then 5 else 3) := by
  obtain ⟨l, f, rest, h1, h2, h3⟩ := C99_received h hi hop hw
  refine ⟨l, f, rest, h1, h2, fun c hc f1 f2 f3 hr => ?_⟩
  have ho := h3 c hc
  simp only [f1, f2, f3, Bool.false_eq_true, if_false, if_true, hr] at ho
  have hh := h.hist
  rw [Device.items_snoc hi] at hh
  obtain ⟨m', o', mt, k1, k2, k3, -⟩ := C28_genuine hh D cnt ho hj hf hs
  rw [hop] at k1
  injection k1 with _ k1
  subst k1
  exact ⟨mt, k2, k3⟩

/- A confirmed downlink with a counter of 9, an option and three bytes of payload. -/
example : ∃ x : Played St, Device Tests.xorEnv step .zero (x.log ++ [x.e]) x.s x.d ∧ x.e.item = some x.it ∧
    (decide (stage (trace (items x.log)) = .rx2) && !(config Tests.xorEnv (items x.log)).joining && decide ((config Tests.xorEnv (items x.log)).down < 9) &&
      (match x.it.op with | .event _ _ => true | _ => false) &&
      onBus x.e.calls fun l =>
        let c : Chip := ⟨fun _ => 0, put (put (fun _ => 0) 0x10 0) 0x13 17, fun a => devFrame.getD a.toNat 0⟩
        decide (c.Honest [0x00, 0x10, 0x13] (regs l)) && decide (c.received =
          devDl.build Tests.xorEnv (view Tests.xorEnv (items x.log)).nwk (view Tests.xorEnv (items x.log)).app (view Tests.xorEnv (items x.log)).addr 9)) = true :=
  of_played (chip := Sim127.chip) (t := .por) dev127Dl _ (by decide +kernel)

/-! ## Sleep -/

/-- **C100** (SX127x) When the outcome of an exchange is reported, the chip has been put into sleep mode. -/
theorem C100_asleep (h : Device E step .zero (log ++ [e]) t' s') (hi : e.item = some it) {er : Err} {mt : Byte} {p : DlPkt}
    (he : Ev.downlink er mt p ∈ it.ev) :
    ∃ l, bus (wire (calls (log ++ [e]))) = some l ∧ ∀ m : OpMode, (m.run (regs l)).mode = 0 := by
  obtain ⟨s, d0, d, pre, l, T⟩ := h.took hi
  obtain ⟨a, ha, -⟩ := report_ops T.before.hist T.step he s.frame
  have hr := T.runs
  rw [ha] at hr
  obtain ⟨l1, dx, x, rfl, hr1, ex⟩ := hr.last
  obtain ⟨lx, hbx, hmx⟩ := C82_modes ex (n := 0) rfl
  have hv : ∀ o ∈ a, o.Valid := fun o ho => dop_valid T.before.hist T.valid T.step o (by rw [ha]; exact List.mem_append_left _ ho)
  obtain ⟨l0, hb0, -⟩ := C93_held (hr1.calls hv T.mid)
  refine ⟨l0 ++ lx, ?_, fun m => by rw [regs_append, mode_append]; exact hmx _⟩
  have : wire (calls (log ++ [e])) = wire (calls log ++ pre ++ l1) ++ x.tr := by
    rw [calls_append, calls_one, T.calls, ← List.append_assoc, ← List.append_assoc, wire_append]
    simp [wire]
  rw [this]
  exact bus_append hb0 hbx

/- The downlink above. -/
example : ∃ x : Played St, Device Tests.xorEnv step .zero (x.log ++ [x.e]) x.s x.d ∧ x.e.item = some x.it ∧
    (x.it.ev.any fun v => match v with | .downlink .no _ _ => true | _ => false) = true :=
  of_played (chip := Sim127.chip) (t := .por) dev127Dl _ (by decide +kernel)

/-! ## Undefined behaviour -/

theorem defined_of (ops : List DOp) (hv : ∀ o ∈ ops, o.Valid ∧ o.direct = false) : ∀ {l : List DItem} {s : St}, Calls step .zero l s → lastInit l ≠ none →
    Defined step s ops := by
  induction ops with
  | nil => exact fun _ _ => trivial
  | cons op ops ih =>
    intro l s h hl
    have h1 := hv op (by simp)
    refine ⟨C87_safe_partial h hl h1.1 (fun o ho => by rw [ho] at h1; exact nomatch h1.2), fun tr r s' ex => ?_⟩
    refine ih (fun o ho => hv o (by simp [ho])) (h.snoc h1.1 ex) ?_
    rw [lastInit_snoc]
    cases op <;> first | exact hl | exact nomatch h1.2

/-- **C101** (SX127x) With the radio initialised, whatever is called next and whatever the chip answers, the driver calls made by the stack meet no undefined
behaviour, and neither does the stack. Missing: the signed shift in `rand`, called by `uwan_init` (C88), and the exceptions of C61. -/
theorem C101_defined_partial {s : St} {t : Uwan.St} (h : Device E step .zero log t s) (hl : lastInit (calls log) ≠ none) {op : Op} (hv : op.Valid) :
    (step s .irqHandler).Safe ∧
    ∀ s1, (op.isCall = true ∧ s1 = s ∨ ∃ tr r, Exec (step s .irqHandler) tr (r, s1)) →
      (∃ r t' ev, Uwan.step E t op = .ok (r, t', ev) ∧ Defined step s1 (ev.filterMap (Ev.dop t.frame))) ∨
      (Uwan.step E t op = .error .nullDeref ∧ stage (trace (items log)) = .tx ∧ (∃ m o, op = .event m o ∧ m.toNat / 4 % 2 = 1) ∧
        (config E (items log)).stamp = true ∧ (config E (items log)).cbs = none) := by
  refine ⟨C87_safe_partial h.calls hl trivial (fun o => (nomatch ·)), fun s1 hs1 => ?_⟩
  rcases C61_defined_partial h.hist hv with ⟨r, t', ev, hs, -⟩ | hx
  · left
    refine ⟨r, t', ev, hs, ?_⟩
    have ho : ∀ o ∈ ev.filterMap (Ev.dop t.frame), o.Valid ∧ o.direct = false := fun o ho => by
      refine ⟨dop_valid h.hist hv hs o ho, ?_⟩
      obtain ⟨x, _, hx⟩ := List.mem_filterMap.1 ho
      exact dop_direct hx
    rcases hs1 with ⟨-, rfl⟩ | ⟨tr, r', ex⟩
    · exact defined_of _ ho h.calls hl
    · refine defined_of _ ho (h.calls.snoc (op := .irqHandler) trivial ex) ?_
      rw [lastInit_snoc]
      exact hl
  · exact .inr hx

/- In the second window. -/
example : ∃ x : Played St, Device Tests.xorEnv step .zero (x.log ++ [x.e]) x.s x.d ∧ x.e.item = some x.it ∧
    decide (lastInit (calls (x.log ++ [x.e])) ≠ none ∧ (Op.event 2 noPkt).Valid) = true :=
  of_played (chip := Sim127.chip) (t := .por) dev127Rx2 _ (by decide +kernel)

/-! ## The data buffer in sleep mode -/

theorem fifo_append : ∀ (l1 l2 : List Reg) (m : OpMode), fifoAwake m (l1 ++ l2) = (fifoAwake m l1 && fifoAwake (m.run l1) l2)
  | [], _, _ => rfl
  | x :: l1, l2, m => by
    simp only [List.cons_append, fifoAwake, OpMode.run, fifo_append l1 l2, Bool.and_assoc]

/-- No access to the FIFO. -/
def NoFifo (l : List Reg) : Prop := ∀ x ∈ l, ∀ v, x ≠ .read 0 v ∧ x ≠ .write 0 v

theorem NoFifo.append {a b : List Reg} (h1 : NoFifo a) (h2 : NoFifo b) : NoFifo (a ++ b) := fun x hx =>
  (List.mem_append.1 hx).elim (h1 x) (h2 x)

theorem NoFifo.reads {a : Nat} (ha : a ≠ 0) (vs : Bytes) : NoFifo (vs.map (.read a ·)) := fun x hx v => by
  obtain ⟨w, _, rfl⟩ := List.mem_map.1 hx
  simp [ha]

theorem fifo_off {l : List Reg} (h : NoFifo l) (m : OpMode) : fifoAwake m l = true := by
  induction l generalizing m with
  | nil => rfl
  | cons x l ih =>
    simp only [fifoAwake, Bool.and_eq_true]
    refine ⟨?_, ih (fun y hy => h y (by simp [hy])) _⟩
    have := h x (by simp)
    cases x with
    | read a v => by_cases ha : a = 0 <;> simp_all
    | write a v => by_cases ha : a = 0 <;> simp_all
    | reset => rfl

theorem fifo_on {l : List Reg} (h : ∀ x ∈ l, Off1 x) {m : OpMode} (hm : m.mode ≠ 0) : fifoAwake m l = true := by
  induction l generalizing m with
  | nil => rfl
  | cons x l ih =>
    simp only [fifoAwake, Bool.and_eq_true]
    have hx : m.next x = m := mode_off (l := [x]) (fun y hy => by rw [List.mem_singleton.1 hy]; exact h x (by simp)) m
    rw [hx]
    refine ⟨?_, ih (fun y hy => h y (by simp [hy])) hm⟩
    cases x <;> simp [hm]

/-- Driver calls that need the chip awake, and whether it is awake after them. -/
def wakes (b : Bool) : DOp → Option Bool
  | .tx _ => if b then some true else none
  | .readPacket _ => if b then some true else none
  | .setup _ | .rx .. => some true
  | .init .. | .sleep | .rand => some false
  | _ => some b

theorem wakes_step {s : St} {op : DOp} (ho : op.Valid) {tr : Trace} {x : DRet × St} (e : Exec (step s op) tr x) {b b' : Bool}
    (hw : wakes b op = some b') : ∃ l, bus tr = some l ∧ ∀ m : OpMode, (b = true → m.mode ≠ 0) →
      fifoAwake m (regs l) = true ∧ (b' = true → (m.run (regs l)).mode ≠ 0) := by
  have off : ∀ {l : List Reg}, (∀ x ∈ l, Off1 x) → NoFifo l → wakes b op = some b → ∀ m : OpMode,
      (b = true → m.mode ≠ 0) → fifoAwake m l = true ∧ (b' = true → (m.run l).mode ≠ 0) := by
    intro l h1 h2 hb m hm
    rw [hb] at hw
    injection hw with hw
    subst hw
    exact ⟨fifo_off h2 m, fun hb => by rw [mode_off h1]; exact hm hb⟩
  have on : ∀ {l : List Reg} {v k : Byte}, NoFifo l → 0 < k.toNat → k.toNat < 8 → ∀ m : OpMode,
      fifoAwake m (l ++ [.read 1 v, .write 1 (opVal v k)]) = true ∧ (b' = true → (m.run (l ++ [.read 1 v, .write 1 (opVal v k)])).mode ≠ 0) := by
    intro l v k h1 h2 h3 m
    rw [fifo_append, mode_append, fifo_off h1]
    refine ⟨rfl, fun _ => ?_⟩
    rw [(mode_rmw h3).1]
    omega
  refine wr_step (P := fun _ l => ∀ m : OpMode, (b = true → m.mode ≠ 0) → fifoAwake m l = true ∧ (b' = true → (m.run l).mode ≠ 0))
    ho ?_ ?_ ?_ ?_ ?_ ?_ ?_ ?_ ?_ ?_ ?_ ?_ e
  · intro hal o h
    subst h
    injection hw with hw
    subst hw
    have : ∀ {l : List Reg}, NoFifo l → ∀ m : OpMode, (b = true → m.mode ≠ 0) →
        fifoAwake m l = true ∧ (false = true → (m.run l).mode ≠ 0) := fun h m _ => ⟨fifo_off h m, (nomatch ·)⟩
    have polls : ∀ (v : Byte) (vs : Bytes), NoFifo (initHead 0x12 ++ calFreq ++ [.read 0x3b v, .write 0x3b (v ||| 0x40)] ++ vs.map (.read 0x3b ·)) :=
      fun v vs => NoFifo.append (by simp [NoFifo, initHead, calFreq, burst]) (.reads (by decide) vs)
    refine wr_init (fun v _ => this ?_) (fun v vs _ _ => this ?_) (fun v vs _ _ _ => this ?_)
    · simp [NoFifo, initHead]
    · exact polls v vs
    · exact (polls v vs).append (by simp [NoFifo])
  · rintro (⟨c, rfl⟩ | ⟨p, rfl⟩)
    · exact off (by simp) (by simp [NoFifo]) rfl
    · exact off (by simp) (by simp [NoFifo]) rfl
  · intro h v m hm
    subst h
    injection hw with hw
    subst hw
    exact ⟨fifo_off (by simp [NoFifo]) m, (nomatch ·)⟩
  · intro f h
    subst h
    exact off (by simp [burst, Off1]) (by simp [NoFifo, burst]) rfl
  · intro p h
    subst h
    exact off (by simp [Off1]) (by simp [NoFifo]) rfl
  · intro b h
    subst h
    exact off (by simp [Off1]) (by simp [NoFifo]) rfl
  · intro p h v m hm
    subst h
    have h1 := on (l := []) (v := v) (k := 1) (by simp [NoFifo]) (by decide) (by decide) m
    have h2 : ∀ l : List Reg, (∀ x ∈ l, Off1 x) → NoFifo l →
        fifoAwake m ([.read 1 v, .write 1 (opVal v 1)] ++ l) = true ∧
          (b' = true → (m.run ([.read 1 v, .write 1 (opVal v 1)] ++ l)).mode ≠ 0) := by
      intro l g1 g2
      rw [fifo_append, mode_append, mode_off g1, fifo_off g2, Bool.and_true]
      exact h1
    exact h2 _ (by simp [Off1]) (by simp [NoFifo])
  · intro buf h v m hm
    subst h
    cases b with
    | false => exact nomatch hw
    | true =>
      have hm := hm rfl
      have glue : ∀ {l1 l2 : List Reg}, (∀ x ∈ l1, Off1 x) → fifoAwake m l2 = true ∧ (b' = true → (m.run l2).mode ≠ 0) →
          fifoAwake m (l1 ++ l2) = true ∧ (b' = true → (m.run (l1 ++ l2)).mode ≠ 0) := by
        intro l1 l2 h1 h2
        rw [fifo_append, mode_append, mode_off h1, fifo_on h1 hm]
        exact h2
      have hoff : ∀ x ∈ [Reg.write 0x0e 0, .write 0x0d 0] ++ burst .write 0 buf, Off1 x := by
        intro x hx
        rcases List.mem_append.1 hx with hx | hx
        · simp at hx; rcases hx with rfl | rfl <;> simp [Off1]
        · exact burst_off (f := .write) (fun a v h => h) _ _ (by decide) x hx
      have := on (l := [.write 0x22 (BitVec.ofNat 8 buf.length), .write 0x11 0xf7, .write 0x40 0x40]) (v := v) (k := 3) (by simp [NoFifo]) (by decide) (by decide) m
      exact glue hoff this
  · intro len symb tmo h c v m hm
    have := on (l := [.read 0x1e c, .write 0x1e ((c &&& ~~~(0x03 : Byte)) ||| ((symb >>> 8).setWidth 8 &&& 0x03)),
      .write 0x1f (symb.setWidth 8), .write 0x0e 0, .write 0x0d 0, .write 0x23 len, .write 0x36 0x02,
      .write 0x3a 0x64, .write 0x11 0x1f, .write 0x40 0x02]) (v := v) (k := if tmo = 0 then 6 else 5) (by simp [NoFifo]) (by split <;> decide)
        (by split <;> decide) m
    exact this
  · intro buf h ptr n data snr rssi m hm
    subst h
    cases b with
    | false => exact nomatch hw
    | true =>
      have hoff : ∀ x ∈ pktRegs ptr n data snr rssi, Off1 x := by
        intro x hx
        simp only [pktRegs, List.mem_append, List.mem_cons, List.mem_map, List.not_mem_nil, or_false] at hx
        rcases hx with (hx | ⟨v, _, rfl⟩) | hx
        · rcases hx with rfl | rfl | rfl <;> simp [Off1]
        · simp [Off1]
        · rcases hx with rfl | rfl <;> simp [Off1]
      exact ⟨fifo_on hoff (hm rfl), fun _ => by rw [mode_off hoff]; exact hm rfl⟩
  · intro h v w vs m hm
    subst h
    injection hw with hw
    subst hw
    exact ⟨fifo_off (((by simp [NoFifo] : NoFifo [_, _, _]).append (.reads (by decide) vs)).append (by simp [NoFifo])) m, (nomatch ·)⟩
  · intro h f g
    subst h
    exact off (by simp [Off1]) (by simp [NoFifo]) rfl

/-- All of these calls. -/
def wakesAll (b : Bool) : List DOp → Option Bool
  | [] => some b
  | op :: ops => (wakes b op).bind fun b => wakesAll b ops

theorem wakes_runs {ops : List DOp} {l : List DItem} {d d' : St} (hr : Runs step d ops l d') (hv : ∀ o ∈ ops, o.Valid) :
    ∀ {b b' : Bool}, wakesAll b ops = some b' → ∃ bl, bus (wire l) = some bl ∧ ∀ m : OpMode, (b = true → m.mode ≠ 0) →
      fifoAwake m (regs bl) = true ∧ (b' = true → (m.run (regs bl)).mode ≠ 0) := by
  induction hr with
  | nil =>
    intro b b' h
    injection h with h
    subst h
    exact ⟨[], rfl, fun m hm => ⟨rfl, hm⟩⟩
  | @cons d d1 d2 op ops tr r l e _ ih =>
    intro b b' h
    obtain ⟨b1, h1, h2⟩ := Option.bind_eq_some_iff.1 h
    obtain ⟨l1, k1, k2⟩ := wakes_step (hv op (by simp)) e h1
    obtain ⟨l2, k3, k4⟩ := ih (fun o ho => hv o (by simp [ho])) h2
    refine ⟨l1 ++ l2, ?_, fun m hm => ?_⟩
    · have : wire (⟨op, tr, r⟩ :: l) = tr ++ wire l := rfl
      rw [this]
      exact bus_append k1 k3
    · obtain ⟨g1, g2⟩ := k2 m hm
      obtain ⟨g3, g4⟩ := k4 _ g2
      rw [regs_append, fifo_append, mode_append, g1, g3]
      exact ⟨rfl, g4⟩

theorem wakes_shape {t t' : Uwan.St} {op : Op} {r : Ret} {ev : List Ev} {its : List Item} (hh : Hist E its t) (hs : Uwan.step E t op = .ok (r, t', ev))
    (fr : Bytes) : ∃ b', wakesAll (decide (exch (trace its) = .busy)) (ev.filterMap (Ev.dop fr)) = some b' ∧
      (ev.foldl Exch.next (exch (trace its)) = .busy → b' = true) := by
  have hsh := step_shape hh.inv hs
  have he := (obs_hist hh).1
  cases hsh with
  | nothing => exact ⟨_, rfl, fun h => decide_eq_true h⟩
  | init => exact ⟨false, rfl, fun h => nomatch h⟩
  | sent f d q l _ _ _ _ hq =>
    rw [List.filterMap_append, List.filterMap_append, quiet_dop hq]
    exact ⟨true, rfl, fun _ => rfl⟩
  | txDone m o q _ _ _ _ hq =>
    rw [List.filterMap_append, quiet_dop hq]
    exact ⟨true, rfl, fun _ => rfl⟩
  | window => exact ⟨true, rfl, fun _ => rfl⟩
  | rx1Timeout => exact ⟨true, rfl, fun _ => rfl⟩
  | result m o a q e mt p _ hp _ _ ha hq =>
    rw [dop_report hq]
    have hb : exch (trace its) = .busy := by rw [he]; rcases hp with hp | hp <;> rw [hp] <;> rfl
    rw [hb]
    refine ⟨false, ?_, fun h => ?_⟩
    · rcases ha with rfl | rfl | rfl | rfl <;> rfl
    · rw [List.foldl_append] at h; exact nomatch h

/-- **C102** The data buffer of an SX127x is accessed only outside of sleep mode, provided the application does not initialise the radio in the
middle of an exchange. -/
theorem C102_awake {t : Uwan.St} {s : St} (h : Device E step .zero log t s) (hb : initBetween log) :
    ∃ l, bus (wire (calls log)) = some l ∧ ∀ m : OpMode, fifoAwake m (regs l) = true := by
  suffices key : ∃ l, bus (wire (calls log)) = some l ∧ ∀ m : OpMode, fifoAwake m (regs l) = true ∧
      (exch (trace (items log)) = .busy → (m.run (regs l)).mode ≠ 0) by
    obtain ⟨l, h1, h2⟩ := key
    exact ⟨l, h1, fun m => (h2 m).1⟩
  have pre : ∀ {log : List Entry} {e : Entry}, initBetween (log ++ [e]) → initBetween log := by
    intro log e hb a x b hl
    exact hb a x (b ++ [e]) (by rw [hl]; simp)
  have snoc : ∀ {log : List Entry} {e : Entry} {b' : Bool} {l0 l1 : List Bus}, bus (wire (calls log)) = some l0 → bus (wire e.calls) = some l1 →
      (∀ m : OpMode, fifoAwake m (regs l0) = true ∧ (exch (trace (items log)) = .busy → (m.run (regs l0)).mode ≠ 0)) →
      (∀ m : OpMode, (decide (exch (trace (items log)) = .busy) = true → m.mode ≠ 0) → fifoAwake m (regs l1) = true ∧ (b' = true → (m.run (regs l1)).mode ≠ 0)) →
      (exch (trace (items (log ++ [e]))) = .busy → b' = true) →
      ∃ l, bus (wire (calls (log ++ [e]))) = some l ∧ ∀ m : OpMode, fifoAwake m (regs l) = true ∧
        (exch (trace (items (log ++ [e]))) = .busy → (m.run (regs l)).mode ≠ 0) := by
    intro log e b' l0 l1 h0 h1 k0 k1 k2
    refine ⟨l0 ++ l1, by rw [calls_append, calls_one, wire_append]; exact bus_append h0 h1, fun m => ?_⟩
    obtain ⟨g1, g2⟩ := k0 m
    obtain ⟨g3, g4⟩ := k1 _ fun h => g2 (of_decide_eq_true h)
    rw [regs_append, fifo_append, mode_append, g1, g3]
    exact ⟨rfl, fun h => g4 (k2 h)⟩
  have none_item : ∀ {log : List Entry} {l : List DItem}, items (log ++ [⟨none, l⟩]) = items log := by
    intro log l; rw [items_append, items_one]; exact List.append_nil _
  induction h with
  | boot => exact ⟨[], rfl, fun m => ⟨rfl, (nomatch ·)⟩⟩
  | @direct log t d d' op tr r h ho e ih =>
    obtain ⟨l0, h0, k0⟩ := ih (pre hb)
    have hv : op.Valid := by cases op <;> first | trivial | exact nomatch ho
    have hw : ∃ b', wakes (decide (exch (trace (items log)) = .busy)) op = some b' ∧ (exch (trace (items log)) = .busy → b' = true) := by
      cases op with
      | init hal o =>
        have := hb log ⟨none, [⟨.init hal o, tr, r⟩]⟩ [] (by simp) rfl ⟨⟨.init hal o, tr, r⟩, List.mem_singleton.2 rfl, hal, o, rfl⟩
        exact ⟨false, rfl, fun h => absurd h this⟩
      | setPublicNetwork => exact ⟨_, rfl, fun h => decide_eq_true h⟩
      | _ => exact nomatch ho
    obtain ⟨b', hw, hx⟩ := hw
    obtain ⟨l1, h1, k1⟩ := wakes_step hv e hw
    have h1 : bus (wire [⟨op, tr, r⟩]) = some l1 := by simpa [wire] using h1
    exact snoc h0 h1 k0 k1 (by rw [none_item]; exact hx)
  | @ignored log t d d' tr r h e hm ih =>
    obtain ⟨l0, h0, k0⟩ := ih (pre hb)
    obtain ⟨l1, h1, k1⟩ := wakes_step (op := .irqHandler) trivial e (b := decide (exch (trace (items log)) = .busy)) rfl
    have h1 : bus (wire [⟨.irqHandler, tr, r⟩]) = some l1 := by simpa [wire] using h1
    exact snoc h0 h1 k0 k1 (by rw [none_item]; exact fun h => decide_eq_true h)
  | @call log t t' d d' op r ev l h ho hv hs hr ih =>
    obtain ⟨l0, h0, k0⟩ := ih (pre hb)
    obtain ⟨b', hw, hx⟩ := wakes_shape h.hist hs t.frame
    obtain ⟨l1, h1, k1⟩ := wakes_runs hr (dop_valid h.hist hv hs) hw
    refine snoc h0 h1 k0 k1 ?_
    rw [Device.items_snoc rfl, exch_trace]
    exact hx
  | @irq log t t' d d1 d' tr r m o u ev l h e hm hs hr hsh ih =>
    obtain ⟨l0, h0, k0⟩ := ih (pre hb)
    obtain ⟨b', hw, hx⟩ := wakes_shape h.hist hs t.frame
    obtain ⟨l1, h1, k1⟩ := wakes_runs (.cons e hr) (fun o ho => by
      rcases List.mem_cons.1 ho with rfl | ho
      · trivial
      · exact dop_valid (op := .event _ _) h.hist trivial hs o ho) (b := decide (exch (trace (items log)) = .busy)) (b' := b') hw
    refine snoc h0 h1 k0 k1 ?_
    rw [Device.items_snoc rfl, exch_trace]
    exact hx

/- An uplink and its downlink: the FIFO is written and read. -/
example : ∃ x : Played St, Device Tests.xorEnv step .zero (x.log ++ [x.e]) x.s x.d ∧ x.e.item = some x.it ∧
    (onBus (calls (x.log ++ [x.e])) (fun l => (regs l).any (fun r => match r with | .write 0 _ => true | _ => false) &&
      (regs l).any (fun r => match r with | .read 0 _ => true | _ => false)) &&
      (items (x.log.take 1)).isEmpty && x.log.tail.all fun e => e.calls.all fun c => match c.op with | .init .. => false | _ => true) = true :=
  of_played (chip := Sim127.chip) (t := .por) dev127Dl _ (by decide +kernel)

end Uwan.Sx127x
