import Verif.Lemmas.Sx127x
import Verif.Tests.RadioTests

/-!
# Properties of the SX127x driver

C70, C72, C74, C76, and the SX127x parts of C78, C79, C85.
-/

namespace Uwan.Sx127x
open Spec

/-- A finished call of anything but `init`, `set_evt_handler` and a refused `set_power` had a HAL. -/
theorem hal_of_exec {s : St} {op : DOp} {tr : Trace} {x : DRet × St} (h : Exec (step s op) tr x)
    (hi : ∀ a b, op ≠ .init a b) (he : ∀ b, op ≠ .setEvtHandler b) (hp : ∀ p, op ≠ .setPower p) :
    ∃ hal, s.hal = some hal := by
  cases hs : s.hal with
  | some hal => exact ⟨hal, rfl⟩
  | none =>
    exfalso
    cases op <;> first
      | exact (hi _ _ rfl).elim
      | exact (he _ rfl).elim
      | exact (hp _ rfl).elim
      | (simp only [step, hs] at h; exact exec_fail h)

/-! ## Tuning -/

theorem toNat_ofNat8 (n : Nat) : (BitVec.ofNat 8 n).toNat = n % 256 := by simp

/-- Three bytes, most significant first, of a number below 2^24. -/
theorem bytes24 (n : Nat) (h : n < 2 ^ 24) :
    (BitVec.ofNat 8 (n / 2 ^ 16)).toNat * 65536 + (BitVec.ofNat 8 (n / 2 ^ 8)).toNat * 256 + (BitVec.ofNat 8 n).toNat = n := by
  rw [toNat_ofNat8, toNat_ofNat8, toNat_ofNat8]
  omega

/-- **C70** After `set_frequency(f)` the frequency registers hold the largest multiple of 32 MHz / 2^19 not
above `f`; nothing else is written. -/
theorem C70_frequency {s s' : St} {f : U32} {tr : Trace} {r : DRet} (hf : f.toNat ≤ 1023000000)
    (e : Exec (step s (.setFrequency f)) tr (r, s')) :
    ∃ l, bus tr = some l ∧ ∀ c : Chip,
      (c.run (regs l)).frf * 32000000 ≤ f.toNat * 2 ^ 19 ∧
      f.toNat * 2 ^ 19 < ((c.run (regs l)).frf + 1) * 32000000 ∧
      ∀ a, a ≠ 6 → a ≠ 7 → a ≠ 8 → (c.run (regs l)).reg a = c.reg a := by
  obtain ⟨hal, hh⟩ := hal_of_exec e (by simp) (by simp) (by simp)
  simp only [step, hh] at e
  obtain ⟨t1, t2, _, rfl, e1, e2⟩ := exec_bind e
  obtain ⟨rfl, _⟩ := exec_ret e2
  rw [List.append_nil]
  suffices key : wr (setFreq f) fun _ x => ∀ c : Chip, (c.run x).frf * 32000000 ≤ f.toNat * 2 ^ 19 ∧
      f.toNat * 2 ^ 19 < ((c.run x).frf + 1) * 32000000 ∧
      ∀ a, a ≠ 6 → a ≠ 7 → a ≠ 8 → (c.run x).reg a = c.reg a from wr_exec key e1
  refine wr_setFreq fun c => ?_
  have hr : f.toNat * 2 ^ 19 / 32000000 < 2 ^ 24 := by omega
  have hn : (c.run (burst .write 6 [BitVec.ofNat 8 (f.toNat * 2 ^ 19 / 32000000 / 2 ^ 16),
      BitVec.ofNat 8 (f.toNat * 2 ^ 19 / 32000000 / 2 ^ 8), BitVec.ofNat 8 (f.toNat * 2 ^ 19 / 32000000)])).frf =
      f.toNat * 2 ^ 19 / 32000000 := bytes24 _ hr
  rw [hn]
  refine ⟨by omega, by omega, fun a h6 h7 h8 => ?_⟩
  simp [burst, Chip.run, Chip.access, put, h6, h7, h8]

/-- 868.1 MHz is 0xd90666 steps. -/
example : regsOf (.setFrequency 868100000) [] = some (.unit, [.write 6 0xd9, .write 7 0x06, .write 8 0x66]) := by decide +kernel

/-! ## Power -/

/-- **C72** `set_power` accepts exactly −4..17 dBm.  It then writes a PA configuration whose output is within
0.2 dB of the request; otherwise it writes nothing. -/
theorem C72_power {s s' : St} {p : BitVec 8} {tr : Trace} {r : DRet}
    (e : Exec (step s (.setPower p)) tr (r, s')) :
    (-4 ≤ p.toInt ∧ p.toInt ≤ 17 → r = .bool true ∧ ∃ l, bus tr = some l ∧ ∀ c : Chip,
      10 * p.toInt - 2 ≤ (c.run (regs l)).power ∧ (c.run (regs l)).power ≤ 10 * p.toInt + 2 ∧
      ∀ a, a ≠ 9 → (c.run (regs l)).reg a = c.reg a) ∧
    (¬(-4 ≤ p.toInt ∧ p.toInt ≤ 17) → r = .bool false ∧ tr = [] ∧ s' = s) := by
  constructor
  · intro hp
    cases hh : s.hal with
    | none =>
      simp only [step, hh] at e
      rw [if_neg (by omega)] at e
      exact (exec_fail e).elim
    | some hal =>
      simp only [step, hh] at e
      obtain ⟨t1, t2, a, rfl, e1, e2⟩ := exec_bind e
      obtain ⟨rfl, ex⟩ := exec_ret e2
      rw [List.append_nil]
      have key : wr (setPower p s.rssiOffset) fun a l => a.1 = true ∧ ∀ c : Chip,
          10 * p.toInt - 2 ≤ (c.run l).power ∧ (c.run l).power ≤ 10 * p.toInt + 2 ∧
          ∀ a, a ≠ 9 → (c.run l).reg a = c.reg a := by
        refine wr_setPower_in hp ⟨rfl, fun c => ?_⟩
        have hpow : ∀ p : BitVec 8, -4 ≤ p.toInt ∧ p.toInt ≤ 17 →
            10 * p.toInt - 2 ≤ (Chip.mk (fun _ => 0) (fun _ => paVal p) fun _ => 0).power ∧
            (Chip.mk (fun _ => 0) (fun _ => paVal p) fun _ => 0).power ≤ 10 * p.toInt + 2 := by decide +kernel
        have he : (c.run [.write 0x09 (paVal p)]).power = (Chip.mk (fun _ => 0) (fun _ => paVal p) fun _ => 0).power := by
          simp [Chip.power, Chip.run, Chip.access, put]
        rw [he]
        exact ⟨(hpow p hp).1, (hpow p hp).2, fun a ha => by simp [Chip.run, Chip.access, put, ha]⟩
      obtain ⟨l, hb, ha, hc⟩ := wr_exec key e1
      refine ⟨?_, l, hb, hc⟩
      injection ex with ex _
      rw [ex, ha]
  · intro hp
    cases hh : s.hal with
    | none =>
      simp only [step, hh] at e
      rw [if_pos (by omega)] at e
      obtain ⟨rfl, ex⟩ := exec_ret e
      injection ex with e1 e2
      exact ⟨e1, rfl, e2⟩
    | some hal =>
      simp only [step, hh, setPower_out _ hp] at e
      obtain ⟨rfl, ex⟩ := exec_ret e
      injection ex with e1 e2
      refine ⟨e1, rfl, ?_⟩
      rw [e2, ← hh]

/-- 16 dBm goes through PA_BOOST, −3 dBm through RFO; 18 dBm is refused. -/
example : regsOf (.setPower 16) [] = some (.bool true, [.write 9 0x8e]) ∧ regsOf (.setPower (-3)) [] = some (.bool true, [.write 9 0x01]) ∧
    regsOf (.setPower 18) [] = some (.bool false, []) := by decide +kernel

/-! ## Modem setup -/

theorem setup_decode (p : PktParams) (v : Byte) (c : Chip) : let c' := c.run [.read 1 v, .write 1 (opVal v 1),
      .write 0x1d ((bwTable p.bw ||| crTable p.cr) ||| (if p.implicitHeader then 0x01 else 0x00)),
      .write 0x1e (sfTable p.sf ||| (if p.crcOn then 0x04 else 0x00)),
      .write 0x26 ((if lowDr p.sf then 0x08 else 0x00) ||| 0x04),
      .write 0x33 (if p.invertedIq then 0x66 else 0x27), .write 0x3b (if p.invertedIq then 0x19 else 0x1d)]
      c'.sf = sfOf p.sf ∧ c'.bwKhz = some (bwKhz p.bw) ∧ c'.crDen = crDen p.cr ∧ c'.implicit = p.implicitHeader ∧
      c'.crcOn = p.crcOn ∧ c'.invertedIq = some p.invertedIq ∧ c'.lowDataRate = decide (11 ≤ sfOf p.sf) ∧
      c'.agcAuto = true ∧ c'.txContinuous = false := by
  obtain ⟨sf, bw, cr, pre, crc, iq, hdr⟩ := p
  simp only [Chip.sf, Chip.bwKhz, Chip.crDen, Chip.implicit, Chip.crcOn, Chip.invertedIq, Chip.lowDataRate,
    Chip.agcAuto, Chip.txContinuous]
  generalize hc' : c.run _ = c'
  have r1d : c'.reg 0x1d = (bwTable bw ||| crTable cr) ||| (if hdr then 0x01 else 0x00) := by rw [← hc']; rfl
  have r1e : c'.reg 0x1e = sfTable sf ||| (if crc then 0x04 else 0x00) := by rw [← hc']; rfl
  have r26 : c'.reg 0x26 = (if lowDr sf then 0x08 else 0x00) ||| 0x04 := by rw [← hc']; rfl
  have r33 : c'.reg 0x33 = if iq then 0x66 else 0x27 := by rw [← hc']; rfl
  have r3b : c'.reg 0x3b = if iq then 0x19 else 0x1d := by rw [← hc']; rfl
  rw [r1d, r1e, r26, r33, r3b]
  refine ⟨?_, ?_, ?_, ?_, ?_, ?_, ?_, ?_, ?_⟩
  · cases sf <;> cases crc <;> rfl
  · cases bw <;> cases cr <;> cases hdr <;> rfl
  · cases bw <;> cases cr <;> cases hdr <;> rfl
  · cases bw <;> cases cr <;> cases hdr <;> rfl
  · cases sf <;> cases crc <;> rfl
  · cases iq <;> rfl
  · cases sf <;> rfl
  · cases sf <;> rfl
  · cases sf <;> cases crc <;> rfl

/-- **C74** After `setup(p)` the modem registers decode to exactly the requested parameters, whatever they
held before. -/
theorem C74_setup {s s' : St} {p : PktParams} {tr : Trace} {r : DRet}
    (e : Exec (step s (.setup p)) tr (r, s')) :
    ∃ l, bus tr = some l ∧ ∀ c : Chip, let c' := c.run (regs l)
      c'.sf = sfOf p.sf ∧ c'.bwKhz = some (bwKhz p.bw) ∧ c'.crDen = crDen p.cr ∧ c'.implicit = p.implicitHeader ∧
      c'.crcOn = p.crcOn ∧ c'.invertedIq = some p.invertedIq ∧ c'.lowDataRate = decide (11 ≤ sfOf p.sf) ∧
      c'.agcAuto = true ∧ c'.txContinuous = false := by
  obtain ⟨hal, hh⟩ := hal_of_exec e (by simp) (by simp) (by simp)
  simp only [step, hh] at e
  obtain ⟨t1, t2, _, rfl, e1, e2⟩ := exec_bind e
  obtain ⟨rfl, _⟩ := exec_ret e2
  rw [List.append_nil]
  suffices key : wr (setup hal p) fun _ x => ∀ c : Chip, let c' := c.run x
      c'.sf = sfOf p.sf ∧ c'.bwKhz = some (bwKhz p.bw) ∧ c'.crDen = crDen p.cr ∧ c'.implicit = p.implicitHeader ∧
      c'.crcOn = p.crcOn ∧ c'.invertedIq = some p.invertedIq ∧ c'.lowDataRate = decide (11 ≤ sfOf p.sf) ∧
      c'.agcAuto = true ∧ c'.txContinuous = false from wr_exec key e1
  exact wr_setup fun v c => setup_decode p v c

/-- SF12, 125 kHz, 4/5, CRC on, explicit header. -/
example : regsOf (.setup testParams) [0, 0x80] = some (.unit, [.read 1 0x80, .write 1 0x81, .write 0x1d 0x72, .write 0x1e 0xc4,
    .write 0x26 0x0c, .write 0x33 0x27, .write 0x3b 0x1d]) := by decide +kernel

/-! ## Transmission -/

/-- **C76** `tx` puts exactly the given bytes into the data buffer from address 0 with the transmit base at 0, sets the
payload length to their number, unmasks only TxDone (bit 3), routes it to DIO0, and enters TX mode with the
last access; the other registers keep their contents. -/
theorem C76_transmits {s s' : St} {buf : Bytes} {tr : Trace} {r : DRet} (hb : buf.length ≤ 255)
    (e : Exec (step s (.tx buf)) tr (r, s')) :
    ∃ l, bus tr = some l ∧
      (∃ pre v, regs l = pre ++ [.write 1 v] ∧ v.toNat % 8 = 3 ∧ writesOf 1 pre = []) ∧
      ∀ c : Chip, let c' := c.run (regs l)
        (∀ i (hi : i < buf.length), c'.mem (BitVec.ofNat 8 i) = buf[i]) ∧ c'.reg 0x0e = 0 ∧
        (c'.reg 0x22).toNat = buf.length ∧ (∀ k, k < 8 → (c'.reg 0x11).getLsbD k = decide (k ≠ 3)) ∧
        c'.dio 0 = 1 ∧
        ∀ a, a ∉ [0x01, 0x0d, 0x0e, 0x11, 0x22, 0x40] → c'.reg a = c.reg a := by
  obtain ⟨hal, hh⟩ := hal_of_exec e (by simp) (by simp) (by simp)
  simp only [step, hh] at e
  obtain ⟨_, e1, _⟩ := exec_map e
  suffices key : wr (tx hal buf) fun _ x =>
      (∃ pre v, x = pre ++ [.write 1 v] ∧ v.toNat % 8 = 3 ∧ writesOf 1 pre = []) ∧
      ∀ c : Chip, let c' := c.run x
        (∀ i (hi : i < buf.length), c'.mem (BitVec.ofNat 8 i) = buf[i]) ∧ c'.reg 0x0e = 0 ∧
        (c'.reg 0x22).toNat = buf.length ∧ (∀ k, k < 8 → (c'.reg 0x11).getLsbD k = decide (k ≠ 3)) ∧
        c'.dio 0 = 1 ∧
        ∀ a, a ∉ [0x01, 0x0d, 0x0e, 0x11, 0x22, 0x40] → c'.reg a = c.reg a from wr_exec key e1
  refine wr_tx fun v => ⟨?_, fun c => ?_⟩
  · refine ⟨[.write 0x0e 0, .write 0x0d 0] ++ burst .write 0 buf ++ [.write 0x22 (BitVec.ofNat 8 buf.length),
      .write 0x11 0xf7, .write 0x40 0x40, .read 1 v], opVal v 3, by simp, (opVal_spec 3 (by decide) v).2.2, ?_⟩
    rw [writesOf_append, writesOf_append, burst_zero, writesOf_map]
    rfl
  · obtain ⟨h1, _, h3⟩ := chip_fill buf hb (c.run [.write 0x0e 0, .write 0x0d 0])
    rw [chip_append, chip_append, burst_zero]
    have hp : (c.run [.write 0x0e 0, .write 0x0d 0]).reg 0x0d = 0 := rfl
    have h0 : ∀ a, a ≠ 0x0d → a ≠ 0x0e → (c.run [.write 0x0e 0, .write 0x0d 0]).reg a = c.reg a := by
      intro a ha hb
      simp [Chip.run, Chip.access, put, ha, hb]
    have he : (c.run [.write 0x0e 0, .write 0x0d 0]).reg 0x0e = 0 := rfl
    rw [hp] at h1
    generalize c.run [.write 0x0e 0, .write 0x0d 0] = c1 at h1 h3 h0 he ⊢
    generalize c1.run (buf.map (.write 0 ·)) = c2 at h1 h3 ⊢
    refine ⟨fun i hi => ?_, ?_, ?_, ?_, ?_, ?_⟩
    · have := h1 i hi
      rw [show (0 : Byte) + BitVec.ofNat 8 i = BitVec.ofNat 8 i from BitVec.zero_add _] at this
      exact this
    · show c2.reg 0x0e = 0
      rw [h3 _ (by decide), he]
    · show (BitVec.ofNat 8 buf.length).toNat = buf.length
      rw [toNat_ofNat8]
      omega
    · show ∀ k, k < 8 → (0xf7 : Byte).getLsbD k = decide (k ≠ 3)
      decide
    · show (0x40 : Byte).toNat / 4 ^ 3 % 4 = 1
      decide
    · intro a ha
      simp only [List.mem_cons, List.not_mem_nil, or_false, not_or] at ha
      simp [Chip.run, Chip.access, put, ha, h3 a ha.2.1, h0 a ha.2.1 ha.2.2.1]

/-- Three bytes. -/
example : regsOf (.tx [7, 8, 9]) [0, 0, 0, 0, 0, 0, 0, 0, 0, 0, 0, 0, 0, 0, 0, 0x81] = some (.unit, [.write 0x0e 0, .write 0x0d 0, .write 0 7,
    .write 0 8, .write 0 9, .write 0x22 3, .write 0x11 0xf7, .write 0x40 0x40, .read 1 0x81, .write 1 0x83]) := by decide +kernel

/-! ## Reception -/

/-- **C86** `rx` sets the symbol timeout (low ten bits), limits the payload to `len`, unmasks exactly RxTimeout, RxDone and
PayloadCrcError (bits 7, 6, 5), routes them to DIO1, DIO0 and DIO3, puts the FIFO pointer at 0, and enters RX mode with the last access:
single reception when no timeout is given, continuous otherwise.  If the chip answers reads of RegModemConfig2 truthfully, the whole modem
configuration set up before stays as it was. -/
theorem C86_receives {s s' : St} {len : Byte} {symb : U16} {tmo : U32} {tr : Trace} {r : DRet}
    (e : Exec (step s (.rx len symb tmo)) tr (r, s')) :
    ∃ l, bus tr = some l ∧
      (∃ pre v, regs l = pre ++ [.write 1 v] ∧ v.toNat % 8 = (if tmo = 0 then 6 else 5) ∧ writesOf 1 pre = []) ∧
      ∀ c : Chip, let c' := c.run (regs l)
        c'.symbTimeout = symb.toNat % 1024 ∧ c'.reg 0x23 = len ∧
        (∀ k, k < 8 → (c'.reg 0x11).getLsbD k = decide (k ≠ 7 ∧ k ≠ 6 ∧ k ≠ 5)) ∧
        (c'.reg 0x0d = 0 ∧ c'.dio 0 = 0 ∧ c'.dio 1 = 0 ∧ c'.dio 3 = 2) ∧
        (c.Honest [0x1e] (regs l) → c'.sf = c.sf ∧ c'.crcOn = c.crcOn ∧ c'.txContinuous = c.txContinuous) ∧
        ∀ a, a ∉ [0x01, 0x0d, 0x0e, 0x11, 0x1e, 0x1f, 0x23, 0x36, 0x3a, 0x40] → c'.reg a = c.reg a := by
  obtain ⟨hal, hh⟩ := hal_of_exec e (by simp) (by simp) (by simp)
  simp only [step, hh] at e
  obtain ⟨_, e1, _⟩ := exec_map e
  suffices key : wr (rx hal len symb tmo) fun _ x =>
      (∃ pre v, x = pre ++ [.write 1 v] ∧ v.toNat % 8 = (if tmo = 0 then 6 else 5) ∧ writesOf 1 pre = []) ∧
      ∀ c : Chip, let c' := c.run x
        c'.symbTimeout = symb.toNat % 1024 ∧ c'.reg 0x23 = len ∧
        (∀ k, k < 8 → (c'.reg 0x11).getLsbD k = decide (k ≠ 7 ∧ k ≠ 6 ∧ k ≠ 5)) ∧
        (c'.reg 0x0d = 0 ∧ c'.dio 0 = 0 ∧ c'.dio 1 = 0 ∧ c'.dio 3 = 2) ∧
        (c.Honest [0x1e] x → c'.sf = c.sf ∧ c'.crcOn = c.crcOn ∧ c'.txContinuous = c.txContinuous) ∧
        ∀ a, a ∉ [0x01, 0x0d, 0x0e, 0x11, 0x1e, 0x1f, 0x23, 0x36, 0x3a, 0x40] → c'.reg a = c.reg a from wr_exec key e1
  have high : ∀ (v : Byte) (h : Byte), ((v &&& ~~~(0x03 : Byte)) ||| (h &&& 0x03)).toNat = v.toNat / 4 * 4 + h.toNat % 4 := by
    intro v h
    have : ∀ (v : Byte) (h : Fin 4), ((v &&& ~~~(0x03 : Byte)) ||| BitVec.ofNat 8 h.val).toNat = v.toNat / 4 * 4 + h.val := by
      decide +kernel
    have h' := this v ⟨h.toNat % 4, by omega⟩
    rw [← h']
    congr 2
    apply BitVec.eq_of_toNat_eq
    simp only [BitVec.toNat_and, BitVec.toNat_ofNat]
    have : (3 : Byte).toNat = 2 ^ 2 - 1 := rfl
    rw [this, Nat.and_two_pow_sub_one_eq_mod]
    omega
  refine wr_rx fun cf v => ⟨?_, fun c => ?_⟩
  · refine ⟨[.read 0x1e cf, .write 0x1e ((cf &&& ~~~(0x03 : Byte)) ||| ((symb >>> 8).setWidth 8 &&& 0x03)),
      .write 0x1f (symb.setWidth 8), .write 0x0e 0, .write 0x0d 0, .write 0x23 len, .write 0x36 0x02,
      .write 0x3a 0x64, .write 0x11 0x1f, .write 0x40 0x02, .read 1 v], opVal v (if tmo = 0 then 6 else 5), rfl, ?_, rfl⟩
    split
    · exact (opVal_spec 6 (by decide) v).2.2
    · exact (opVal_spec 5 (by decide) v).2.2
  · intro c'
    have r1e : c'.reg 0x1e = (cf &&& ~~~(0x03 : Byte)) ||| ((symb >>> 8).setWidth 8 &&& 0x03) := rfl
    have r1f : c'.reg 0x1f = symb.setWidth 8 := rfl
    have r40 : c'.reg 0x40 = 0x02 := rfl
    refine ⟨?_, rfl, ?_, ⟨rfl, by simp only [Chip.dio, r40]; decide, by simp only [Chip.dio, r40]; decide, by simp only [Chip.dio, r40]; decide⟩, ?_, ?_⟩
    · simp only [Chip.symbTimeout, r1e, r1f, high]
      simp only [BitVec.toNat_setWidth, BitVec.toNat_ushiftRight, Nat.shiftRight_eq_div_pow]
      omega
    · show ∀ k, k < 8 → (0x1f : Byte).getLsbD k = decide (k ≠ 7 ∧ k ≠ 6 ∧ k ≠ 5)
      decide
    · intro hh
      have hcf : cf = c.reg 0x1e := hh.1 (by simp)
      simp only [Chip.sf, Chip.crcOn, Chip.txContinuous, r1e, high, hcf]
      refine ⟨by omega, ?_, ?_⟩
      · congr 2; omega
      · congr 2; omega
    · intro a ha
      simp only [List.mem_cons, List.not_mem_nil, or_false, not_or] at ha
      show (c.run _).reg a = c.reg a
      simp [Chip.run, Chip.access, put, ha]

/-- A single reception window of 8 symbols. -/
example : (regsOf (.rx 64 8 0) [0, 0xc4]).map (fun x => x.2.take 7) = some [.read 0x1e 0xc4, .write 0x1e 0xc4, .write 0x1f 8, .write 0x0e 0,
    .write 0x0d 0, .write 0x23 64, .write 0x36 2] := by decide +kernel

/-- **C79** (SX127x) `read_packet` is given an array and reports a size: the lesser of the array's and the received
length.  That many bytes at its start are replaced, the rest of the array is untouched; and they are
what the chip holds in its data buffer from the packet's start address, if the chip answers truthfully. -/
theorem C79_reads {s s' : St} {buf : Bytes} {tr : Trace} {r : DRet} (e : Exec (step s (.readPacket buf)) tr (r, s')) :
    ∃ l p n, bus tr = some l ∧ r = .pkt p ∧ readsOf 0x13 (regs l) = [n] ∧ p.size = min n.toNat buf.length ∧
      p.buf.length = buf.length ∧ p.buf.drop p.size = buf.drop p.size ∧
      ∀ c : Chip, c.Honest [0x00, 0x10] (regs l) →
        ∀ i (_ : i < p.size) (h' : i < p.buf.length), p.buf[i] = c.mem (c.reg 0x10 + BitVec.ofNat 8 i) := by
  obtain ⟨hal, hh⟩ := hal_of_exec e (by simp) (by simp) (by simp)
  simp only [step, hh] at e
  obtain ⟨p, e1, ex⟩ := exec_map e
  suffices key : wr (readPacket s.rssiOffset buf) fun p x => ∃ n, readsOf 0x13 x = [n] ∧ p.size = min n.toNat buf.length ∧
      p.buf.length = buf.length ∧ p.buf.drop p.size = buf.drop p.size ∧
      ∀ c : Chip, c.Honest [0x00, 0x10] x →
        ∀ i (_ : i < p.size) (h' : i < p.buf.length), p.buf[i] = c.mem (c.reg 0x10 + BitVec.ofNat 8 i) by
    obtain ⟨l, hb, n, h⟩ := wr_exec key e1
    injection ex with ex _
    exact ⟨l, p, n, hb, ex, h⟩
  refine wr_readPacket fun ptr n data snr rssi hd => ⟨n, ?_, hd, ?_, ?_, ?_⟩
  · simp only [pktRegs]
    rw [readsOf_append, readsOf_append, readsOf_map]
    rfl
  · simp only [List.length_append, List.length_drop]
    omega
  · simp
  · intro c hc i hi hi'
    simp only at hi
    simp only [pktRegs] at hc
    rw [chip_honest_append, chip_honest_append] at hc
    have hp : ptr = c.reg 0x10 := hc.1.1.1 (by simp)
    have := chip_drain (by simp) data _ hc.1.2 i hi
    rw [List.getElem_append_left hi, this]
    have hm : (c.run [.read 0x10 ptr, .write 0x0d ptr, .read 0x13 n]).mem = c.mem := rfl
    have hr : (c.run [.read 0x10 ptr, .write 0x0d ptr, .read 0x13 n]).reg 0x0d = ptr := rfl
    rw [hm, hr, hp]

/-- Four bytes received, room for two. -/
example : (regsOf (.readPacket [9, 9]) [0, 0x20, 0, 0, 0, 4, 0, 0xaa, 0xbb, 0, 0xf8, 0, 100]).map Prod.fst =
    some (.pkt ⟨[0xaa, 0xbb], 2, 100, -2⟩) := by decide +kernel

/-- Two bytes received, room for four: the rest of the array keeps. -/
example : (regsOf (.readPacket [9, 9, 9, 9]) [0, 0x20, 0, 0, 0, 2, 0, 0xaa, 0xbb, 0, 0xf8, 0, 100]).map Prod.fst =
    some (.pkt ⟨[0xaa, 0xbb, 9, 9], 2, 100, -2⟩) := by decide +kernel

/-- The RSSI offset kept by the driver is that of the last accepted power. -/
theorem offset_calls {log : List DItem} {s : St} (h : Calls step .zero log s) :
    s.rssiOffset.toInt = match lastPower log with
      | none => 0
      | some p => if p.toInt ≤ 14 then -164 else -157 := by
  induction h with
  | nil => rfl
  | @snoc log s s' op tr r hc hv e ih =>
    rw [lastPower_snoc]
    have keep : (∀ p, op ≠ .setPower p) → s'.rssiOffset = s.rssiOffset := by
      intro hp
      cases hh : s.hal with
      | none =>
        cases op with
        | setPower p => exact (hp p rfl).elim
        | setEvtHandler b =>
          obtain ⟨_, ex⟩ := exec_ret e
          injection ex with _ ex
          rw [ex]
        | init a b =>
          cases a with
          | none => exact (exec_fail e).elim
          | some a =>
            obtain ⟨_, _, ex⟩ := exec_map e
            injection ex with _ ex
            rw [ex]
        | _ => simp only [step, hh] at e; exact (exec_fail e).elim
      | some hal =>
        cases op with
        | setPower p => exact (hp p rfl).elim
        | setEvtHandler b =>
          obtain ⟨_, ex⟩ := exec_ret e
          injection ex with _ ex
          rw [ex]
        | init a b =>
          cases a with
          | none => exact (exec_fail e).elim
          | some a =>
            obtain ⟨_, _, ex⟩ := exec_map e
            injection ex with _ ex
            rw [ex]
        | _ =>
          simp only [step, hh] at e
          obtain ⟨_, _, ex⟩ := exec_map e
          injection ex with _ ex
          rw [ex]
    cases op with
    | setPower p =>
      cases hh : s.hal with
      | none =>
        simp only [step, hh] at e
        split at e
        · obtain ⟨_, ex⟩ := exec_ret e
          injection ex with er es
          rw [er, es]
          exact ih
        · exact (exec_fail e).elim
      | some hal =>
        simp only [step, hh] at e
        by_cases hp : -4 ≤ p.toInt ∧ p.toInt ≤ 17
        · obtain ⟨t1, t2, a, rfl, e1, e2⟩ := exec_bind e
          obtain ⟨_, ex⟩ := exec_ret e2
          injection ex with er es
          have key : wr (setPower p s.rssiOffset) fun a _ => a = (true, BitVec.ofInt 16 (if p.toInt ≤ 14 then -164 else -157)) :=
            wr_setPower_in hp rfl
          obtain ⟨_, _, ha⟩ := wr_exec key e1
          rw [er, es, ha]
          simp only [if_pos]
          split <;> rfl
        · rw [setPower_out _ hp] at e
          obtain ⟨_, ex⟩ := exec_ret e
          injection ex with er es
          rw [er, es]
          exact ih
    | _ => rw [keep (by simp)]; exact ih

/-- **C85** (SX127x) `read_packet` reports SNR = raw/4 rounded toward zero, and RSSI = raw − 164 after an accepted power of
up to 14 dBm (RFO), raw − 157 above (PA_BOOST), raw if no power was ever set. -/
theorem C85_quality {log : List DItem} {s s' : St} {buf : Bytes} {tr : Trace} {r : DRet} (h : Calls step .zero log s)
    (e : Exec (step s (.readPacket buf)) tr (r, s')) :
    ∃ l p snr rssi, bus tr = some l ∧ r = .pkt p ∧ readsOf 0x19 (regs l) = [snr] ∧ readsOf 0x1a (regs l) = [rssi] ∧
      p.snr.toInt = snr.toInt.tdiv 4 ∧
      p.rssi.toInt = rssi.toNat + match lastPower log with
        | none => 0
        | some q => if q.toInt ≤ 14 then -164 else -157 := by
  have ho := offset_calls h
  obtain ⟨hal, hh⟩ := hal_of_exec e (by simp) (by simp) (by simp)
  simp only [step, hh] at e
  obtain ⟨p, e1, ex⟩ := exec_map e
  suffices key : wr (readPacket s.rssiOffset buf) fun p x => ∃ snr rssi, readsOf 0x19 x = [snr] ∧ readsOf 0x1a x = [rssi] ∧
      p.snr.toInt = snr.toInt.tdiv 4 ∧ p.rssi.toInt = rssi.toNat + s.rssiOffset.toInt by
    obtain ⟨l, hb, snr, rssi, h1, h2, h3, h4⟩ := wr_exec key e1
    injection ex with ex _
    rw [ho] at h4
    exact ⟨l, p, snr, rssi, hb, ex, h1, h2, h3, h4⟩
  refine wr_readPacket fun ptr n data snr rssi hd => ⟨snr, rssi, ?_, ?_, ?_, ?_⟩
  · simp only [pktRegs]
    rw [readsOf_append, readsOf_append, readsOf_map]
    rfl
  · simp only [pktRegs]
    rw [readsOf_append, readsOf_append, readsOf_map]
    rfl
  · have : ∀ x : Byte, (snrOf x).toInt = x.toInt.tdiv 4 := by decide +kernel
    exact this snr
  · have hb : -164 ≤ s.rssiOffset.toInt ∧ s.rssiOffset.toInt ≤ 0 := by
      rw [ho]
      split
      · decide
      · split <;> decide
    have hr := rssi.isLt
    simp only [BitVec.toInt_add, BitVec.toInt_setWidth]
    have : Int.bmod (rssi.toNat : Int) (2 ^ 16) = rssi.toNat := by
      rw [Int.bmod_eq_of_le] <;> omega
    rw [this, Int.bmod_eq_of_le] <;> omega

/-- After `set_power(16)` the offset is −157. -/
example : Calls step .zero (madeBy day) (stateBy .zero day) ∧ lastPower (madeBy day) = some 16 ∧ (stateBy .zero day).rssiOffset.toInt = -157 :=
  ⟨day_calls, by decide +kernel, by decide +kernel⟩

/-- The SX1276 datasheet's RSSI offset (section 5.5.5): by the port in use, which the frequency decides. -/
def portOffset (f : U32) : Option Int := if f.toNat ≥ 779000000 then some (-157) else if f.toNat ≤ 525000000 then some (-164) else none

/-- **C85** (SX127x) The reported RSSI is the datasheet's if the power last accepted is above 14 dBm in the high band, or up to
14 dBm in the low band. -/
theorem C85_port_partial {log : List DItem} {s s' : St} {buf : Bytes} {tr : Trace} {r : DRet} {f : U32} {q : BitVec 8} {o : Int}
    (h : Calls step .zero log s) (hf : (wish log).freq = some f) (hq : lastPower log = some q) (ho : portOffset f = some o)
    (hm : q.toInt > 14 ↔ f.toNat ≥ 779000000) (e : Exec (step s (.readPacket buf)) tr (r, s')) :
    ∃ l p rssi, bus tr = some l ∧ r = .pkt p ∧ readsOf 0x1a (regs l) = [rssi] ∧ p.rssi.toInt = rssi.toNat + o := by
  obtain ⟨l, p, snr, rssi, h1, h2, _, h4, _, h6⟩ := C85_quality h e
  refine ⟨l, p, rssi, h1, h2, h4, ?_⟩
  rw [h6, hq]
  have : (if q.toInt ≤ 14 then (-164 : Int) else -157) = o := by
    simp only [portOffset] at ho
    split at ho
    · rw [if_neg (by omega)]; simpa using ho
    · split at ho
      · rw [if_pos (by omega)]; simpa using ho
      · exact nomatch ho
  simp only [this]

/-- 868.1 MHz and 16 dBm. -/
example : (wish (madeBy day)).freq = some 868100000 ∧ lastPower (madeBy day) = some 16 ∧ portOffset 868100000 = some (-157) ∧
    ((16 : BitVec 8).toInt > 14 ↔ (868100000 : U32).toNat ≥ 779000000) :=
  ⟨by decide +kernel, by decide +kernel, by decide +kernel, by decide +kernel⟩

/-- Reception at 868.1 MHz after `set_power(14)`. -/
def lowDay : Option (List DItem × St × Sim127) :=
  playAll step Sim127.chip .zero .por [.init (some ⟨true, true, true⟩) none, .setFrequency 868100000, .setPower 14]

/-- What is missing from C85: at 868.1 MHz and 14 dBm the driver takes off 164, where the datasheet takes off 157. -/
theorem C85_wrong_port : ∃ log s, Calls step .zero log s ∧ (wish log).freq = some 868100000 ∧ portOffset 868100000 = some (-157) ∧
    ∀ buf tr r s', Exec (step s (.readPacket buf)) tr (r, s') →
      ∃ l p rssi, bus tr = some l ∧ r = .pkt p ∧ readsOf 0x1a (regs l) = [rssi] ∧ p.rssi.toInt = rssi.toNat + -164 := by
  have hc : Calls step .zero (madeBy lowDay) (stateBy .zero lowDay) := by
    refine calls_of_play (by decide +kernel) ?_
    intro op hop
    simp only [List.mem_cons, List.not_mem_nil, or_false] at hop
    rcases hop with rfl | rfl | rfl <;> trivial
  refine ⟨madeBy lowDay, stateBy .zero lowDay, hc, by decide +kernel, by decide +kernel, fun buf tr r s' e => ?_⟩
  obtain ⟨l, p, snr, rssi, h1, h2, _, h4, _, h6⟩ := C85_quality hc e
  have hq : lastPower (madeBy lowDay) = some 14 := by decide +kernel
  rw [hq] at h6
  exact ⟨l, p, rssi, h1, h2, h4, h6⟩

/-! ## Interrupts -/

/-- **C78** (SX127x) `irq_handler` reads the interrupt flags once and reports, to the registered handler once and as its result,
exactly the four events flagged; it clears exactly their flags (bits 7, 6, 5, 3). -/
theorem C78_interrupts {s s' : St} {tr : Trace} {r : DRet} (e : Exec (step s .irqHandler) tr (r, s')) :
    ∃ l f m, bus tr = some l ∧ readsOf 0x12 (regs l) = [f] ∧ r = .mask m ∧ maskEvents m = some (flags127 f) ∧
      reported l = (if s.handler then [m] else []) ∧
      writesOf 0x12 (regs l) = [f &&& 0xe8] ∧ regs l = [.read 0x12 f, .write 0x12 (f &&& 0xe8)] := by
  obtain ⟨hal, hh⟩ := hal_of_exec e (by simp) (by simp) (by simp)
  simp only [step, hh] at e
  obtain ⟨m, e1, ex⟩ := exec_map e
  injection ex with ex _
  suffices key : wp (irqHandler s.handler) fun m l => ∃ f, readsOf 0x12 (regs l) = [f] ∧ maskEvents m = some (flags127 f) ∧
      reported l = (if s.handler then [m] else []) ∧
      writesOf 0x12 (regs l) = [f &&& 0xe8] ∧ regs l = [.read 0x12 f, .write 0x12 (f &&& 0xe8)] by
    obtain ⟨l, hb, f, h1, h2, h3, h4, h5⟩ := key.2 _ _ e1
    rw [regs_quiet] at h1 h4 h5
    rw [reported_quiet] at h3
    exact ⟨l, f, m, hb, h1, ex, h2, h3, h4, h5⟩
  refine wp_irqHandler fun m1 f m2 r' cf res hm hc hr => ⟨f, ?_⟩
  subst hc
  match m2, hm with
  | [a, b], _ =>
    cases s.handler
    · refine ⟨?_, hr, rfl, ?_, ?_⟩ <;> simp [regs, accesses, burst, readsOf, writesOf]
    · refine ⟨?_, hr, rfl, ?_, ?_⟩ <;> simp [regs, accesses, burst, readsOf, writesOf]

/-- RxDone and PayloadCrcError together (and ValidHeader, which is left alone). -/
example : regsOf .irqHandler [0, 0x70] = some (.mask 0x0a, [.read 0x12 0x70, .write 0x12 0x60]) := by decide +kernel

/-! ## Framing, modes, initialisation -/

/-- **C80** (SX127x) Every finished driver call is well framed on the SPI bus. -/
theorem C80_framed {s s' : St} {op : DOp} {tr : Trace} {r : DRet} (hv : op.Valid) (e : Exec (step s op) tr (r, s')) :
    (bus tr).isSome := by
  have : ∃ l, bus tr = some l ∧ True := wr_step (P := fun _ _ => True) hv
    (fun hal o _ => wr_init (fun _ _ => trivial) (fun _ _ _ _ => trivial) (fun _ _ _ _ _ => trivial)) (fun _ => trivial)
    (by simp) (by simp) (by simp) (by simp) (by simp) (by simp) (by simp) (by simp) (by simp) (by simp) e
  obtain ⟨l, hl, _⟩ := this
  rw [hl]
  rfl

/-- All calls of the history are framed. -/
example : (bus (wire (madeBy day))).isSome = true ∧ (madeBy day).length = 16 := ⟨by decide +kernel, by decide +kernel⟩

/-- **C78** (SX127x) The handler is told last, after the flags are cleared and the bus is free: it may call the driver again. -/
theorem C78_last {s s' : St} {tr : Trace} {m : Byte} (hh : s.handler = true) (e : Exec (step s .irqHandler) tr (.mask m, s')) :
    ∃ tr0 x, tr = tr0 ++ [(.handler m, x)] ∧ (bus tr0).isSome = true := by
  have hf := C80_framed (op := .irqHandler) trivial e
  obtain ⟨hal, hl⟩ := hal_of_exec e (by simp) (by simp) (by simp)
  simp only [step, hl] at e
  obtain ⟨m', e1, ex⟩ := exec_map e
  injection ex with ex _
  injection ex with ex
  subst ex
  rw [hh] at e1
  obtain ⟨t1, t2, f, rfl, -, e1⟩ := exec_bind e1
  obtain ⟨t3, t4, _, rfl, -, e1⟩ := exec_bind e1
  obtain ⟨t5, t6, _, rfl, e2, e1⟩ := exec_bind e1
  obtain ⟨rfl, rfl⟩ := exec_ret e1
  obtain ⟨x, rfl⟩ := exec_optTrue e2
  refine ⟨t1 ++ t3, x, by simp, ?_⟩
  simp only [List.append_nil, ← List.append_assoc] at hf
  exact bus_before hf

/-- TxDone. -/
example : (Prog.play scripted [0, 0x08] (step { St.zero with hal := some ⟨false, false, false⟩, handler := true } .irqHandler)).map
    (fun x => (x.2.1.1, x.1.getLast?)) = some (.mask 0x04, some (.handler 0x04, 0)) := by decide +kernel

/-- **C82** Once `init` has succeeded (and no later `init` has failed), the chip is in LoRa mode after any sequence
of driver calls, whatever mode it was in at the start, if it answers reads of RegOpMode truthfully. -/
theorem C82_lora {log : List DItem} {s : St} (h : Calls step .zero log s) :
    ∃ l, bus (wire log) = some l ∧ (lastInit log = some (.bool true) → ∀ m : OpMode, m.Honest (regs l) →
      (m.run (regs l)).lora = true ∧ (m.run (regs l)).shared = false) := by
  induction h with
  | nil => exact ⟨[], rfl, fun h => nomatch h⟩
  | @snoc log s s' op tr r hc hv e ih =>
    obtain ⟨l, hb, ih⟩ := ih
    rw [wire_snoc, lastInit_snoc]
    have old : (∀ a b, op ≠ .init a b) → ∃ l', bus (wire log ++ tr) = some l' ∧ (lastInit log = some (.bool true) →
        ∀ m : OpMode, m.Honest (regs l') → (m.run (regs l')).lora = true ∧ (m.run (regs l')).shared = false) := by
      intro hi
      obtain ⟨l', hb', hs⟩ := stays_step hv hi e
      refine ⟨l ++ l', bus_append hb hb', fun hl m hm => ?_⟩
      rw [regs_append, mode_honest_append] at hm
      rw [regs_append, mode_append]
      exact hs _ (ih hl m hm.1) hm.2
    cases op with
    | init a b =>
      obtain ⟨l', hb', _⟩ : ∃ l', bus tr = some l' ∧ True := by
        have := C80_framed hv e
        cases hx : bus tr with
        | none => rw [hx] at this; exact nomatch this
        | some l' => exact ⟨l', rfl, trivial⟩
      refine ⟨l ++ l', bus_append hb hb', fun hl m _ => ?_⟩
      injection hl with hl
      subst hl
      obtain ⟨l'', hb'', hm⟩ := lora_init e
      rw [hb'] at hb''
      injection hb'' with hb''
      subst hb''
      rw [regs_append, mode_append, hm]
      exact ⟨rfl, rfl⟩
    | _ => exact old (by simp)

/-- A history whose `init` succeeded. -/
example : Calls step .zero (madeBy day) (stateBy .zero day) ∧ lastInit (madeBy day) = some (.bool true) := ⟨day_calls, by decide +kernel⟩

/-- **C82** The mode a call ends in: `tx` TX (3), `rx` single (6) or continuous (5) reception, `sleep` SLEEP (0),
`setup` STANDBY (1), whatever the chip answers. -/
theorem C82_modes {s s' : St} {op : DOp} {tr : Trace} {r : DRet} (e : Exec (step s op) tr (r, s')) {n : Nat}
    (hn : match op with
      | .tx buf => buf.length ≤ 255 ∧ n = 3
      | .rx _ _ tmo => n = if tmo = 0 then 6 else 5
      | .sleep => n = 0
      | .setup _ => n = 1
      | _ => False) :
    ∃ l, bus tr = some l ∧ ∀ m : OpMode, (m.run (regs l)).mode = n := by
  have endw : ∀ {l : List Reg} {pre v}, l = pre ++ [.write 1 v] → ∀ m : OpMode, (m.run l).mode = v.toNat % 8 := by
    intro l pre v h m
    rw [h, mode_append]
    rfl
  cases op with
  | tx buf =>
    obtain ⟨hb, rfl⟩ := hn
    obtain ⟨l, hl, ⟨pre, v, h1, h2, _⟩, _⟩ := C76_transmits hb e
    exact ⟨l, hl, fun m => by rw [endw h1, h2]⟩
  | rx a b c =>
    obtain ⟨l, hl, ⟨pre, v, h1, h2, _⟩, _⟩ := C86_receives e
    exact ⟨l, hl, fun m => by rw [endw h1, h2, hn]⟩
  | sleep =>
    subst hn
    obtain ⟨hal, hh⟩ := hal_of_exec e (by simp) (by simp) (by simp)
    simp only [step, hh] at e
    obtain ⟨_, e1, _⟩ := exec_map e
    suffices key : wr (sleep hal) fun _ x => ∀ m : OpMode, (m.run x).mode = 0 from wr_exec key e1
    exact wr_sleep fun v m => (mode_rmw (by decide)).1
  | setup p =>
    subst hn
    obtain ⟨hal, hh⟩ := hal_of_exec e (by simp) (by simp) (by simp)
    simp only [step, hh] at e
    obtain ⟨_, e1, _⟩ := exec_map e
    suffices key : wr (setup hal p) fun _ x => ∀ m : OpMode, (m.run x).mode = 1 from wr_exec key e1
    refine wr_setup fun v m => ?_
    have h1 := (mode_rmw (m := m) (v := v) (mode := 1) (by decide)).1
    have := mode_append [.read 1 v, .write 1 (opVal v 1)] [.write 0x1d ((bwTable p.bw ||| crTable p.cr) ||| (if p.implicitHeader then 0x01 else 0x00)),
      .write 0x1e (sfTable p.sf ||| (if p.crcOn then 0x04 else 0x00)),
      .write 0x26 ((if lowDr p.sf then 0x08 else 0x00) ||| 0x04),
      .write 0x33 (if p.invertedIq then 0x66 else 0x27), .write 0x3b (if p.invertedIq then 0x19 else 0x1d)] m
    refine (congrArg OpMode.mode this).trans ?_
    rw [mode_off (by simp [Off1])]
    exact h1
  | _ => exact hn.elim

/-- From SLEEP in LoRa mode (0x80) to continuous reception (0x85). -/
example : (regsOf (.rx 64 8 3000) (List.replicate 21 0 ++ [0x80])).map (fun x => x.2.getLast?) = some (some (.write 1 0x85)) := by decide +kernel

/-- **C83** (SX127x) `init` reads the version register once.  If it is not 0x12 it fails without having written any register.
Otherwise it polls the calibration at most 255 times, and succeeds exactly if one of the first 254 polls finds it
finished (bit 5 clear). -/
theorem C83_init {s s' : St} {hal : Hal} {o : Option Sx126x.Opts} {tr : Trace} {r : DRet}
    (e : Exec (step s (.init (some hal) o)) tr (r, s')) :
    ∃ l v ok, bus tr = some l ∧ readsOf 0x42 (regs l) = [v] ∧ r = .bool ok ∧
      (v ≠ 0x12 → ok = false ∧ ∀ a, writesOf a (regs l) = []) ∧
      (v = 0x12 → ∃ v0 polls, readsOf 0x3b (regs l) = v0 :: polls ∧ polls.length ≤ 255 ∧
        (ok = true ↔ ∃ x ∈ polls.take 254, x.getLsbD 5 = false)) := by
  obtain ⟨ok, e1, ex⟩ := exec_map e
  injection ex with ex _
  suffices key : wr (init hal) fun ok x => ∃ v, readsOf 0x42 x = [v] ∧
      (v ≠ 0x12 → ok = false ∧ ∀ a, writesOf a x = []) ∧
      (v = 0x12 → ∃ v0 polls, readsOf 0x3b x = v0 :: polls ∧ polls.length ≤ 255 ∧
        (ok = true ↔ ∃ x ∈ polls.take 254, x.getLsbD 5 = false)) by
    obtain ⟨l, hb, v, h1, h2⟩ := wr_exec key e1
    exact ⟨l, v, ok, hb, h1, ex, h2⟩
  have hbit : ∀ x : Byte, x &&& 0x20 = 0 ↔ x.getLsbD 5 = false := by decide +kernel
  refine wr_init (fun v hv => ⟨v, rfl, fun _ => ⟨rfl, fun _ => rfl⟩, fun h => (hv h).elim⟩) ?_ ?_
  · intro v vs hl hd
    refine ⟨0x12, ?_, fun h => (h rfl).elim, fun _ => ⟨v, vs, ?_, by omega, ?_⟩⟩
    · rw [readsOf_append, readsOf_map]
      rfl
    · rw [readsOf_append, readsOf_map]
      rfl
    · have ed : vs.dropLast = vs.take 254 := by rw [List.dropLast_eq_take, hl]
      rw [ed] at hd
      exact ⟨fun h => (nomatch h), fun ⟨x, hx, hx'⟩ => (hd x hx ((hbit x).2 hx')).elim⟩
  · intro v vs hl hx hd
    refine ⟨0x12, ?_, fun h => (h rfl).elim, fun _ => ⟨v, vs, ?_, by omega, ?_⟩⟩
    · rw [readsOf_append, readsOf_append, readsOf_map]
      rfl
    · rw [readsOf_append, readsOf_append, readsOf_map]
      simp [readsOf, calFreq, burst, initHead]
    · rw [List.take_of_length_le (by omega)]
      obtain ⟨x, hx, hx'⟩ := hx
      exact ⟨fun _ => ⟨x, List.mem_of_getLast? hx, (hbit x).1 hx'⟩, fun _ => rfl⟩


/-- Calibration finishes at the third poll. -/
example : (regsOf (.init (some ⟨true, true, true⟩) none) [0, 0x12, 0, 0, 0, 0, 0, 0x82, 0, 0, 0, 0x20, 0, 0x20, 0, 0x00]).map Prod.fst =
    some (.bool true) := by decide +kernel

/-- A missing chip answers zeros. -/
example : regsOf (.init (some ⟨true, true, true⟩) none) [] = some (.bool false, [.reset, .reset, .read 0x42 0]) := by decide +kernel

/-- **C83** (SX127x) `init` never waits for the chip: against every chip it runs to its end. -/
theorem C83_terminates {σ : Type} (chip : σ → Call → Byte × σ) (z : σ) (s : St) (hal : Hal) (o : Option Sx126x.Opts) :
    (step s (.init (some hal) o)).NoPoll ∧ ∃ x, (step s (.init (some hal) o)).play chip z = some x := by
  refine ⟨noPoll_bind' (noPoll_init hal) fun _ => trivial, play_total chip _ ?_ z⟩
  have : wr (init hal) fun _ _ => True := wr_init (fun _ _ => trivial) (fun _ _ _ _ => trivial) (fun _ _ _ _ _ => trivial)
  exact safe_map this.1

/-- A driver that was initialised, successfully or not, has a HAL. -/
theorem hal_calls {log : List DItem} {s : St} (h : Calls step .zero log s) (hi : lastInit log ≠ none) :
    ∃ hal, s.hal = some hal := by
  induction h with
  | nil => exact (hi rfl).elim
  | @snoc log s s' op tr r hc hv e ih =>
    rw [lastInit_snoc] at hi
    cases op with
    | init a b =>
      cases a with
      | none => exact (exec_fail e).elim
      | some a =>
        obtain ⟨_, _, ex⟩ := exec_map e
        injection ex with _ ex
        exact ⟨a, by rw [ex]⟩
    | setEvtHandler b =>
      obtain ⟨hal, hh⟩ := ih hi
      obtain ⟨_, ex⟩ := exec_ret e
      injection ex with _ ex
      exact ⟨hal, by rw [ex, ← hh]⟩
    | setPower p =>
      obtain ⟨hal, hh⟩ := ih hi
      simp only [step, hh] at e
      obtain ⟨_, _, a, _, _, e2⟩ := exec_bind e
      obtain ⟨_, ex⟩ := exec_ret e2
      injection ex with _ ex
      exact ⟨hal, by rw [ex, ← hh]⟩
    | _ =>
      obtain ⟨hal, hh⟩ := ih hi
      simp only [step, hh] at e
      obtain ⟨_, _, ex⟩ := exec_map e
      injection ex with _ ex
      exact ⟨hal, by rw [ex, ← hh]⟩

/-- **C87** (SX127x) Once `init` has been called, successfully or not, no sequence of driver calls reaches undefined behaviour
whatever the chip answers, except for handing `init` a null HAL (and the shift of C88). -/
theorem C87_safe_partial {log : List DItem} {s : St} (h : Calls step .zero log s) (hl : lastInit log ≠ none) {op : DOp}
    (hv : op.Valid) (hi : ∀ o, op ≠ .init none o) : (step s op).Safe := by
  obtain ⟨hal, hh⟩ := hal_calls h hl
  exact safe_step hh op hv hi

/-- The history is one such, and transmitting one such call. -/
example : Calls step .zero (madeBy day) (stateBy .zero day) ∧ lastInit (madeBy day) ≠ none ∧ (DOp.tx [1, 2, 3]).Valid :=
  ⟨day_calls, by decide +kernel, by decide⟩

/-- Before `init` a driver call may go through the null HAL pointer. -/
theorem C87_before_init : ¬ (step .zero .sleep).Safe := fun h => h

/-! ## Random numbers -/

/-- **C88** (SX127x) `rand` reads the wideband RSSI 32 times; bit `i` of the result is the lowest bit of reading `i`, and the chip is put
to sleep at the end.  If bit 31 is set, a signed shift has overflowed on the way. -/
theorem C88_rand_partial {s s' : St} {tr : Trace} {r : DRet} (e : Exec (step s .rand) tr (r, s')) :
    ∃ l vs v ub, bus tr = some l ∧ readsOf 0x2c (regs l) = vs ∧ vs.length = 32 ∧ r = .rand v ub ∧
      (∀ i (h : i < vs.length), v.getLsbD i = vs[i].getLsbD 0) ∧ ub = v.getLsbD 31 ∧
      ∀ m : OpMode, (m.run (regs l)).mode = 0 := by
  obtain ⟨hal, hh⟩ := hal_of_exec e (by simp) (by simp) (by simp)
  simp only [step, hh] at e
  obtain ⟨⟨v, ub⟩, e1, ex⟩ := exec_map e
  suffices key : wr rand fun x l => ∃ vs, readsOf 0x2c l = vs ∧ vs.length = 32 ∧
      (∀ i (h : i < vs.length), x.1.getLsbD i = vs[i].getLsbD 0) ∧ x.2 = x.1.getLsbD 31 ∧ ∀ m : OpMode, (m.run l).mode = 0 by
    obtain ⟨l, hb, vs, h1, h2, h3, h4⟩ := key.2 _ _ e1
    rw [regs_quiet] at h1 h4
    injection ex with ex _
    exact ⟨l, vs, v, ub, hb, h1, h2, ex, h3, h4⟩
  refine wr_rand fun a b vs hl => ⟨vs, ?_, hl, fun i hi => ?_, ?_, fun m => ?_⟩
  · rw [readsOf_append, readsOf_append, readsOf_map]
    simp [readsOf]
  · rw [randOf_bit vs 0 0 i (by omega)]
    simp [List.getD_eq_getElem?_getD, hi]
  · rw [randOf_bit vs 0 0 31 (by omega), overOf_bit vs 0 false (by omega)]
    simp
  · rw [mode_append]
    exact (mode_rmw (by decide)).1

/-- Readings that are odd exactly in places 0 and 3. -/
example : (regsOf .rand ([0, 0, 0, 0x81, 0, 0] ++ [0, 5, 0, 4, 0, 0, 0, 7])).map Prod.fst = some (.rand 0b1001 false) := by decide +kernel

/-- What is missing from C88: a call of `rand` that meets the overflowing signed shift. -/
theorem C88_overflow : ∃ tr v s', Exec (step { St.zero with hal := some ⟨false, false, false⟩ } .rand) tr (.rand v true, s') := by
  have h : ((step { St.zero with hal := some ⟨false, false, false⟩ } .rand).play scripted (List.replicate 200 1)).map
      (fun y => match y.2.1.1 with | .rand _ ub => ub | _ => false) = some true := by decide +kernel
  cases hp : (step { St.zero with hal := some ⟨false, false, false⟩ } .rand).play scripted (List.replicate 200 1) with
  | none => rw [hp] at h; exact nomatch h
  | some x =>
    obtain ⟨tr, ⟨r, s'⟩, z⟩ := x
    rw [hp] at h
    have e := Prog.play_exec _ _ _ hp
    cases r with
    | rand v ub =>
      simp only [Option.map_some, Option.some.injEq] at h
      subst h
      exact ⟨tr, v, s', e⟩
    | _ => simp at h

/-! ## The configuration over a sequence of calls -/

/-- The chip holds what was asked for. -/
structure Good (w : Wish) (c : Chip) : Prop where
  freq : w.up = true → ∀ f : U32, w.freq = some f → f.toNat ≤ 1023000000 →
    c.frf * 32000000 ≤ f.toNat * 2 ^ 19 ∧ f.toNat * 2 ^ 19 < (c.frf + 1) * 32000000
  power : w.up = true → ∀ p, w.power = some p → 10 * p.toInt - 2 ≤ c.power ∧ c.power ≤ 10 * p.toInt + 2
  setup : w.up = true → ∀ p, w.setup = some p → c.sf = sfOf p.sf ∧ c.bwKhz = some (bwKhz p.bw) ∧ c.crDen = crDen p.cr ∧
    c.implicit = p.implicitHeader ∧ c.crcOn = p.crcOn ∧ c.invertedIq = some p.invertedIq ∧
    c.lowDataRate = decide (11 ≤ sfOf p.sf) ∧ c.agcAuto = true ∧ c.txContinuous = false
  sync : w.up = true → c.reg 0x39 = if w.isPublic then 0x34 else 0x14

/-- No reset in a list of accesses. -/
def noReset (l : List Reg) : Prop := Reg.reset ∉ l

theorem reg_kept : ∀ {l : List Reg} {a : Nat} {c : Chip}, a ≠ 0x0d → writesOf a l = [] → noReset l → (c.run l).reg a = c.reg a
  | [], _, _, _, _, _ => rfl
  | .write b v :: l, a, c, ha, hw, hr => by
    simp only [writesOf] at hw
    split at hw
    · exact nomatch hw
    · rename_i hb
      rw [Chip.run, reg_kept ha hw fun h => hr (by simp [h])]
      simp only [Chip.access]
      split
      · simp [put, ha]
      · simp [put, Ne.symm hb]
  | .read b v :: l, a, c, ha, hw, hr => by
    simp only [writesOf] at hw
    rw [Chip.run, reg_kept ha hw fun h => hr (by simp [h])]
    simp only [Chip.access]
    split
    · simp [put, ha]
    · rfl
  | .reset :: l, a, c, _, _, hr => (hr (by simp)).elim

/-- The registers behind a configuration. -/
def cfgRegs : List Nat := [0x06, 0x07, 0x08, 0x09, 0x1d, 0x26, 0x33, 0x3b, 0x39]

theorem good_of_regs {w : Wish} {c c' : Chip} (h : Good w c) (hr : ∀ a ∈ cfgRegs, c'.reg a = c.reg a)
    (he : (c'.reg 0x1e).toNat / 4 = (c.reg 0x1e).toNat / 4) : Good w c' := by
  have e : ∀ a ∈ cfgRegs, c'.reg a = c.reg a := hr
  simp only [cfgRegs, List.mem_cons, List.not_mem_nil, or_false, forall_eq_or_imp, forall_eq] at e
  obtain ⟨h6, h7, h8, h9, h1d, h26, h33, h3b, h39⟩ := e
  have d : ∀ x y : Nat, x / 4 = y / 4 → x / 16 = y / 16 ∧ x / 8 = y / 8 := by omega
  obtain ⟨d1, d2⟩ := d _ _ he
  refine ⟨fun hu f hf hb => ?_, fun hu p hp => ?_, fun hu p hp => ?_, fun hu => ?_⟩
  · have := h.freq hu f hf hb
    simpa only [Chip.frf, h6, h7, h8] using this
  · have := h.power hu p hp
    simpa only [Chip.power, h9] using this
  · have := h.setup hu p hp
    simpa only [Chip.sf, Chip.bwKhz, Chip.crDen, Chip.implicit, Chip.crcOn, Chip.invertedIq, Chip.lowDataRate, Chip.agcAuto,
      Chip.txContinuous, h1d, h26, h33, h3b, he, d1, d2] using this
  · rw [h39]
    exact h.sync hu

/-- A call that writes none of the configuration registers keeps the configuration. -/
theorem good_kept {w : Wish} {c : Chip} {l : List Reg} (h : Good w c) (hw : ∀ a ∈ 0x1e :: cfgRegs, writesOf a l = [])
    (hr : noReset l) : Good w (c.run l) := by
  have k : ∀ a ∈ 0x1e :: cfgRegs, (c.run l).reg a = c.reg a := fun a ha => reg_kept (by
    rintro rfl
    simp [cfgRegs] at ha) (hw a ha) hr
  exact good_of_regs h (fun a ha => k a (by simp [ha])) (by rw [k 0x1e (by simp)])

/-- Every call brings the chip to hold what was asked for. -/
theorem good_step {s s' : St} {op : DOp} {tr : Trace} {r : DRet} (hv : op.Valid) (e : Exec (step s op) tr (r, s')) :
    ∃ l, bus tr = some l ∧ ∀ w c, Good w c → c.Honest [0x1e] (regs l) → Good (w.next ⟨op, tr, r⟩) (c.run (regs l)) := by
  by_cases hi : ∃ hal o, op = .init hal o
  · obtain ⟨hal, o, rfl⟩ := hi
    cases hal with
    | none => exact (exec_fail e).elim
    | some hal =>
      obtain ⟨ok, e1, ex⟩ := exec_map e
      injection ex with ex _
      suffices key : wr (init hal) fun ok l => ok = true → ∀ c : Chip, (c.run l).reg 0x39 = 0x34 by
        obtain ⟨l, hb, hq⟩ := key.2 _ _ e1
        rw [regs_quiet] at hq
        refine ⟨l, hb, fun w c _ _ => ?_⟩
        rw [ex]
        cases ok with
        | false => exact ⟨nofun, nofun, nofun, nofun⟩
        | true => exact ⟨fun _ _ h => (nomatch h), fun _ _ h => (nomatch h), fun _ _ h => (nomatch h), fun _ => hq rfl c⟩
      refine wr_init (fun _ _ h => (nomatch h)) (fun _ _ _ _ h => (nomatch h)) fun v vs _ _ _ _ c => ?_
      rw [chip_append]
      simp [Chip.run, Chip.access, put]
  by_cases hp : ∃ p, op = .setPower p
  · obtain ⟨p, rfl⟩ := hp
    obtain ⟨hin, hout⟩ := C72_power e
    by_cases h : -4 ≤ p.toInt ∧ p.toInt ≤ 17
    · obtain ⟨rfl, l, hb, hq⟩ := hin h
      refine ⟨l, hb, fun w c hg _ => ?_⟩
      obtain ⟨h1, h2, h3⟩ := hq c
      have k : ∀ a, a ≠ 9 → (c.run (regs l)).reg a = c.reg a := h3
      refine ⟨fun hu f hf hb => ?_, ?_, fun hu q hq => ?_, fun hu => ?_⟩
      · have := hg.freq hu f hf hb
        simpa only [Chip.frf, k 6 (by decide), k 7 (by decide), k 8 (by decide)] using this
      · rintro _ _ ⟨⟩
        exact ⟨h1, h2⟩
      · have := hg.setup hu q hq
        simpa only [Chip.sf, Chip.bwKhz, Chip.crDen, Chip.implicit, Chip.crcOn, Chip.invertedIq, Chip.lowDataRate, Chip.agcAuto,
          Chip.txContinuous, k 0x1d (by decide), k 0x1e (by decide), k 0x26 (by decide), k 0x33 (by decide), k 0x3b (by decide)] using this
      · rw [k 0x39 (by decide)]
        exact hg.sync hu
    · obtain ⟨rfl, rfl, _⟩ := hout h
      exact ⟨[], rfl, fun w c hg _ => hg⟩
  have hnext : ∀ w : Wish, w.next ⟨op, tr, r⟩ = w.next ⟨op, [], .unit⟩ := by
    intro w
    cases op <;> first | rfl | exact (hi ⟨_, _, rfl⟩).elim | exact (hp ⟨_, rfl⟩).elim
  suffices key : ∃ l, bus tr = some l ∧ ∀ w c, Good w c → c.Honest [0x1e] (regs l) → Good (w.next ⟨op, [], .unit⟩) (c.run (regs l)) by
    obtain ⟨l, hb, hq⟩ := key
    exact ⟨l, hb, fun w c hg hh => by rw [hnext]; exact hq w c hg hh⟩
  refine wr_step (P := fun op l => ∀ w c, Good w c → c.Honest [0x1e] l → Good (w.next ⟨op, [], .unit⟩) (c.run l)) hv
    (fun hal o h => (hi ⟨_, _, h⟩).elim) ?_ ?_ ?_ ?_ ?_ ?_ ?_ ?_ ?_ ?_ ?_ e
  · rintro (⟨b, rfl⟩ | h) w c hg _
    · exact hg
    · exact (hp h).elim
  · rintro rfl v w c hg _
    exact good_kept hg (by simp [cfgRegs, writesOf]) (by simp [noReset])
  · rintro f rfl w c hg _
    have k : ∀ a ∈ [0x1d, 0x1e, 0x26, 0x33, 0x3b, 0x39, 0x09], (c.run (burst .write 6 [BitVec.ofNat 8 (f.toNat * 2 ^ 19 / 32000000 / 2 ^ 16),
      BitVec.ofNat 8 (f.toNat * 2 ^ 19 / 32000000 / 2 ^ 8), BitVec.ofNat 8 (f.toNat * 2 ^ 19 / 32000000)])).reg a = c.reg a := by
      intro a ha
      simp only [List.mem_cons, List.not_mem_nil, or_false] at ha
      rcases ha with rfl | rfl | rfl | rfl | rfl | rfl | rfl <;> simp [burst, Chip.run, Chip.access, put]
    simp only [List.mem_cons, List.not_mem_nil, or_false, forall_eq_or_imp, forall_eq] at k
    obtain ⟨h1d, h1e, h26, h33, h3b, h39, h9⟩ := k
    refine ⟨?_, fun hu q hq => ?_, fun hu q hq => ?_, fun hu => ?_⟩
    · rintro _ _ ⟨⟩ hf
      have : (c.run (burst .write 6 [BitVec.ofNat 8 (f.toNat * 2 ^ 19 / 32000000 / 2 ^ 16),
        BitVec.ofNat 8 (f.toNat * 2 ^ 19 / 32000000 / 2 ^ 8), BitVec.ofNat 8 (f.toNat * 2 ^ 19 / 32000000)])).frf =
          f.toNat * 2 ^ 19 / 32000000 := bytes24 _ (by omega)
      rw [this]
      omega
    · have := hg.power hu q hq
      simpa only [Chip.power, h9] using this
    · have := hg.setup hu q hq
      simpa only [Chip.sf, Chip.bwKhz, Chip.crDen, Chip.implicit, Chip.crcOn, Chip.invertedIq, Chip.lowDataRate, Chip.agcAuto,
        Chip.txContinuous, h1d, h1e, h26, h33, h3b] using this
    · rw [h39]
      exact hg.sync hu
  · rintro p rfl
    exact (hp ⟨_, rfl⟩).elim
  · rintro b rfl w c hg _
    exact ⟨hg.freq, hg.power, hg.setup, fun _ => rfl⟩
  · rintro p rfl v w c hg _
    refine ⟨hg.freq, hg.power, ?_, hg.sync⟩
    rintro _ _ ⟨⟩
    exact setup_decode p v c
  · rintro buf rfl v w c hg _
    refine good_kept hg ?_ ?_
    · intro a ha
      rw [burst_zero, writesOf_append, writesOf_append, writesOf_map]
      simp only [cfgRegs, List.mem_cons, List.not_mem_nil, or_false] at ha
      rcases ha with rfl | rfl | rfl | rfl | rfl | rfl | rfl | rfl | rfl | rfl <;> simp [writesOf]
    · rw [burst_zero]
      simp [noReset]
  · rintro len symb tmo rfl x v w c hg hh
    have hx : x = c.reg 0x1e := by
      have := hh.1 (by simp)
      simpa using this
    subst hx
    refine good_of_regs hg ?_ ?_
    · intro a ha
      simp only [cfgRegs, List.mem_cons, List.not_mem_nil, or_false] at ha
      rcases ha with rfl | rfl | rfl | rfl | rfl | rfl | rfl | rfl | rfl <;> simp [Chip.run, Chip.access, put]
    · have : ∀ a b : Byte, ((a &&& ~~~(0x03 : Byte)) ||| (b &&& 0x03)).toNat / 4 = a.toNat / 4 := by
        have : ∀ b : Fin 4, ∀ a : Byte, ((a &&& ~~~(0x03 : Byte)) ||| BitVec.ofNat 8 b.val).toNat / 4 = a.toNat / 4 := by decide +kernel
        intro a b
        have hb : ∃ k : Fin 4, b &&& 0x03 = BitVec.ofNat 8 k.val := by
          have : ∀ b : Byte, ∃ k : Fin 4, b &&& 0x03 = BitVec.ofNat 8 k.val := by decide +kernel
          exact this b
        obtain ⟨k, hk⟩ := hb
        rw [hk]
        exact this k a
      have := this (c.reg 0x1e) ((symb >>> 8).setWidth 8)
      simpa [Chip.run, Chip.access, put] using this
  · rintro buf rfl ptr n data snr rssi w c hg _
    refine good_kept hg ?_ ?_
    · intro a ha
      rw [pktRegs, writesOf_append, writesOf_append, writesOf_reads]
      simp only [cfgRegs, List.mem_cons, List.not_mem_nil, or_false] at ha
      rcases ha with rfl | rfl | rfl | rfl | rfl | rfl | rfl | rfl | rfl | rfl <;> simp [writesOf]
    · simp [pktRegs, noReset]
  · rintro rfl v w' vs w c hg _
    refine good_kept hg ?_ ?_
    · intro a ha
      rw [writesOf_append, writesOf_append, writesOf_reads]
      simp only [cfgRegs, List.mem_cons, List.not_mem_nil, or_false] at ha
      rcases ha with rfl | rfl | rfl | rfl | rfl | rfl | rfl | rfl | rfl | rfl <;> simp [writesOf]
    · simp [noReset]
  · rintro rfl f g w c hg _
    exact good_kept hg (by simp [cfgRegs, writesOf]) (by simp [noReset])

/-- **C93** After any sequence of driver calls whose last `init` succeeded, the SX127x registers hold the frequency, power, modem settings
and sync word last asked for, provided the chip reads back RegModemConfig2 as written. -/
theorem C93_held {log : List DItem} {s : St} (h : Calls step .zero log s) :
    ∃ l, bus (wire log) = some l ∧ ∀ c : Chip, c.Honest [0x1e] (regs l) → Good (wish log) (c.run (regs l)) := by
  induction h with
  | nil => exact ⟨[], rfl, fun c _ => ⟨nofun, nofun, nofun, nofun⟩⟩
  | @snoc log s s' op tr r hc hv e ih =>
    obtain ⟨l, hb, hg⟩ := ih
    obtain ⟨l', hb', hg'⟩ := good_step hv e
    refine ⟨l ++ l', ?_, fun c hh => ?_⟩
    · rw [wire_snoc]
      exact bus_append hb hb'
    · rw [regs_append, chip_honest_append] at hh
      rw [regs_append, chip_append]
      have := hg' _ _ (hg c hh.1) hh.2
      simpa [wish, List.foldl_append] using this

/-- The history asks for 868.1 MHz, 16 dBm and the private network, and the simulated chip holds that. -/
example : (wish (madeBy day)).up = true ∧ (wish (madeBy day)).freq = some 868100000 ∧ (wish (madeBy day)).power = some 16 ∧
    (wish (madeBy day)).isPublic = false ∧ (wish (madeBy day)).setup.isSome = true ∧
    day.map (fun x => [x.2.2.get 6, x.2.2.get 7, x.2.2.get 8, x.2.2.get 9, x.2.2.get 0x39]) = some [0xd9, 0x06, 0x66, 0x8e, 0x14] :=
  ⟨by decide +kernel, by decide +kernel, by decide +kernel, by decide +kernel, by decide +kernel, by decide +kernel⟩

/-! ## The preamble -/

/-- No call writes the preamble length registers. -/
theorem preamble_step {s s' : St} {op : DOp} {tr : Trace} {r : DRet} (hv : op.Valid) (e : Exec (step s op) tr (r, s')) :
    ∃ l, bus tr = some l ∧ writesOf 0x20 (regs l) = [] ∧ writesOf 0x21 (regs l) = [] := by
  refine wr_step (P := fun _ l => writesOf 0x20 l = [] ∧ writesOf 0x21 l = []) hv ?_ ?_ ?_ ?_ ?_ ?_ ?_ ?_ ?_ ?_ ?_ ?_ e
  · intro hal o _
    refine wr_init ?_ ?_ ?_
    · intro v _; simp [initHead, writesOf]
    · intro v vs _ _; simp [initHead, calFreq, burst, writesOf, writesOf_append, writesOf_reads]
    · intro v vs _ _ _; simp [initHead, calFreq, burst, writesOf, writesOf_append, writesOf_reads]
  · intros; simp [writesOf]
  · intros; simp [writesOf]
  · intros; simp [burst, writesOf]
  · intros; simp [writesOf]
  · intros; simp [writesOf]
  · intros; simp [writesOf]
  · intro buf _ v; simp [burst_zero, writesOf, writesOf_append, writesOf_map]
  · intros; simp [writesOf]
  · intros; simp [pktRegs, writesOf, writesOf_append, writesOf_reads]
  · intros; simp [writesOf, writesOf_append, writesOf_reads]
  · intros; simp [writesOf]

theorem preamble_run : ∀ {l : List Reg} {c : Chip}, writesOf 0x20 l = [] → writesOf 0x21 l = [] → c.por 0x20 = 0 → c.por 0x21 = 8 →
    (c.run l).por = c.por ∧ (c.preamble = 8 → (c.run l).preamble = 8)
  | [], c, _, _, _, _ => ⟨rfl, id⟩
  | x :: l, c, h0, h1, p0, p1 => by
    have hp : (c.access x).por = c.por := by
      cases x with
      | write a v => simp only [Chip.access]; split <;> rfl
      | read a v => simp only [Chip.access]; split <;> rfl
      | reset => rfl
    have h0' : writesOf 0x20 l = [] := by
      cases x with
      | write a v => simp only [writesOf] at h0; split at h0; exact nomatch h0; exact h0
      | _ => exact h0
    have h1' : writesOf 0x21 l = [] := by
      cases x with
      | write a v => simp only [writesOf] at h1; split at h1; exact nomatch h1; exact h1
      | _ => exact h1
    obtain ⟨i1, i2⟩ := preamble_run (c := c.access x) h0' h1' (by rw [hp]; exact p0) (by rw [hp]; exact p1)
    refine ⟨by rw [← hp]; exact i1, fun hc => i2 ?_⟩
    cases x with
    | write a v =>
      have n0 : a ≠ 0x20 := by rintro rfl; simp [writesOf] at h0
      have n1 : a ≠ 0x21 := by rintro rfl; simp [writesOf] at h1
      simp only [Chip.access]
      split
      · simpa [Chip.preamble, put] using hc
      · simpa [Chip.preamble, put, Ne.symm n0, Ne.symm n1] using hc
    | read a v =>
      simp only [Chip.access]
      split
      · simpa [Chip.preamble, put] using hc
      · exact hc
    | reset => simp [Chip.access, Chip.preamble, p0, p1]

/-- **C91** (SX127x) The preamble length is 8 symbols after any sequence of driver calls, on a chip whose reset value is 8: right if
`setup` asked for 8, as the stack does. -/
theorem C91_preamble_partial {log : List DItem} {s : St} (h : Calls step .zero log s) {p : PktParams} (hp : (wish log).setup = some p)
    (h8 : p.preambleLen = 8) :
    ∃ l, bus (wire log) = some l ∧ ∀ c : Chip, c.por 0x20 = 0 → c.por 0x21 = 8 → c.preamble = 8 →
      (c.run (regs l)).preamble = p.preambleLen.toNat := by
  suffices key : ∃ l, bus (wire log) = some l ∧ writesOf 0x20 (regs l) = [] ∧ writesOf 0x21 (regs l) = [] by
    obtain ⟨l, hb, h0, h1⟩ := key
    refine ⟨l, hb, fun c p0 p1 hc => ?_⟩
    rw [h8]
    exact (preamble_run h0 h1 p0 p1).2 hc
  clear hp
  induction h with
  | nil => exact ⟨[], rfl, rfl, rfl⟩
  | @snoc log s s' op tr r hc hv e ih =>
    obtain ⟨l, hb, h0, h1⟩ := ih
    obtain ⟨l', hb', h0', h1'⟩ := preamble_step hv e
    refine ⟨l ++ l', ?_, ?_, ?_⟩
    · rw [wire_snoc]
      exact bus_append hb hb'
    · rw [regs_append, writesOf_append, h0, h0']
      rfl
    · rw [regs_append, writesOf_append, h1, h1']
      rfl

/-- The history asks for 8 symbols. -/
example : (wish (madeBy day)).setup.map (·.preambleLen) = some 8 := by decide +kernel

/-- What is missing from C91: `setup` never programs the preamble length it is given. -/
theorem C91_ignored {s s' : St} {p : PktParams} {tr : Trace} {r : DRet} (e : Exec (step s (.setup p)) tr (r, s')) :
    ∃ l, bus tr = some l ∧ ∀ c : Chip, (c.run (regs l)).preamble = c.preamble := by
  obtain ⟨hal, hh⟩ := hal_of_exec e (by simp) (by simp) (by simp)
  simp only [step, hh] at e
  obtain ⟨_, e1, _⟩ := exec_map e
  have key : wr (setup hal p) fun _ l => ∀ c : Chip, (c.run l).preamble = c.preamble := wr_setup fun v c => rfl
  obtain ⟨l, hb, hq⟩ := key.2 _ _ e1
  rw [regs_quiet] at hq
  exact ⟨l, hb, hq⟩

/-! ## Low-data-rate optimisation -/

/-- **C94** (SX127x) At 125 kHz low-data-rate optimisation is switched on exactly if a symbol, of 2^SF/BW, takes longer than 16 ms. -/
theorem C94_ldro_partial {s s' : St} {p : PktParams} {tr : Trace} {r : DRet} (hb : p.bw = .bw125) (e : Exec (step s (.setup p)) tr (r, s')) :
    ∃ l, bus tr = some l ∧ ∀ c : Chip, (c.run (regs l)).bwKhz = some 125 ∧
      ((c.run (regs l)).lowDataRate = true ↔ 2 ^ (c.run (regs l)).sf > 16 * 125) := by
  obtain ⟨l, h1, h2⟩ := C74_setup e
  refine ⟨l, h1, fun c => ?_⟩
  obtain ⟨h3, h4, _, _, _, _, h5, _⟩ := h2 c
  rw [h3, h4, h5, hb]
  refine ⟨rfl, ?_⟩
  cases p.sf <;> decide

/-- What is missing from C94: SF11 at 250 kHz has symbols of 8.2 ms, yet optimisation is switched on. -/
theorem C94_sf11_bw250 {s s' : St} {p : PktParams} {tr : Trace} {r : DRet} (hs : p.sf = .sf11) (hb : p.bw = .bw250)
    (e : Exec (step s (.setup p)) tr (r, s')) :
    ∃ l, bus tr = some l ∧ ∀ c : Chip, (c.run (regs l)).bwKhz = some 250 ∧ (c.run (regs l)).sf = 11 ∧
      (c.run (regs l)).lowDataRate = true ∧ ¬ 2 ^ 11 > 16 * 250 := by
  obtain ⟨l, h1, h2⟩ := C74_setup e
  refine ⟨l, h1, fun c => ?_⟩
  obtain ⟨h3, h4, _, _, _, _, h5, _⟩ := h2 c
  rw [h3, h4, h5, hs, hb]
  exact ⟨rfl, rfl, rfl, by decide⟩

end Uwan.Sx127x
