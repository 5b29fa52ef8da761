import Verif.Lemmas.Sx126x
import Verif.Lemmas.Bridge
import Verif.Tests.RadioTests

/-!
# Properties of the SX126x driver

C71, C73, C75, C77, C81, C84, and the SX126x parts of C78, C79, C80, C83, C85, C87.
-/

namespace Uwan.Sx126x
open Spec

/-- A finished call of anything but `init`, `set_evt_handler` and `set_power` had a HAL. -/
theorem hal_of_exec {s : St} {op : DOp} {tr : Trace} {x : DRet × St} (h : Exec (step s op) tr x)
    (hi : ∀ a b, op ≠ .init a b) (he : ∀ b, op ≠ .setEvtHandler b) (hp : ∀ p, op ≠ .setPower p) :
    ∃ hal, s.hal = some hal := by
  cases hs : s.hal with
  | some hal => exact ⟨hal, rfl⟩
  | none =>
    exfalso
    cases op <;> first
      | exact (hi _ _ rfl).elim
      | exact (he _ rfl).elim
      | exact (hp _ rfl).elim
      | (simp only [step, hs] at h; exact Sx127x.exec_fail h)

theorem sent_append : ∀ a b : List Bus, sent (a ++ b) = sent a ++ sent b
  | [], _ => rfl
  | .frame o i :: a, b => by simp only [List.cons_append, sent, sent_append a b]
  | .other _ _ :: a, b => by simp only [List.cons_append, sent, sent_append a b]

theorem woken {b : Bool} {pre : List Bus} (h : Wake b pre) : Woken (sent pre) := by
  cases h
  · exact .inl rfl
  · exact .inr rfl

theorem sent_opt (b : Bool) (c : Call) (r : Byte) : sent (if b then [.other c r] else []) = [] := by cases b <;> rfl

/-! ## Tuning -/

theorem toNat_ofNat8 (n : Nat) : (BitVec.ofNat 8 n).toNat = n % 256 := by simp

theorem rf_decode {f : U32} (hf : f.toNat ≤ 4095000000) : rfFreq [0x86, BitVec.ofNat 8 (f.toNat * 2 ^ 25 / 32000000 / 2 ^ 24),
    BitVec.ofNat 8 (f.toNat * 2 ^ 25 / 32000000 / 2 ^ 16), BitVec.ofNat 8 (f.toNat * 2 ^ 25 / 32000000 / 2 ^ 8),
    BitVec.ofNat 8 (f.toNat * 2 ^ 25 / 32000000)] = some (f.toNat * 2 ^ 25 / 32000000) := by
  refine congrArg some ?_
  simp only [toNat_ofNat8]
  generalize hn : f.toNat * 2 ^ 25 / 32000000 = n
  have hn : n < 2 ^ 32 := by omega
  have h1 : n / 2 ^ 8 / 256 = n / 2 ^ 16 := by rw [Nat.div_div_eq_div_mul]
  have h2 : n / 2 ^ 16 / 256 = n / 2 ^ 24 := by rw [Nat.div_div_eq_div_mul]
  omega

/-- **C71** `set_frequency(f)` sends SetRfFrequency with the largest multiple of 32 MHz / 2^25 not above `f`, after
calibrating the image rejection for 860-876 MHz. -/
theorem C71_frequency {s s' : St} {f : U32} {tr : Trace} {r : DRet} (hf : f.toNat ≤ 4095000000)
    (e : Exec (step s (.setFrequency f)) tr (r, s')) :
    ∃ l w cal cmd n, bus tr = some l ∧ Woken w ∧ sent l = w ++ [cal, cmd] ∧ imageBand cal = some (860, 876) ∧
      rfFreq cmd = some n ∧ n * 32000000 ≤ f.toNat * 2 ^ 25 ∧ f.toNat * 2 ^ 25 < (n + 1) * 32000000 := by
  obtain ⟨hal, hh⟩ := hal_of_exec e (by simp) (by simp) (by simp)
  simp only [step, hh] at e
  obtain ⟨a, b, e1, _, _⟩ := exec_with e
  suffices key : wd (setFreq f) s.isSleep fun _ _ l => ∃ w cal cmd n, Woken w ∧ sent l = w ++ [cal, cmd] ∧
      imageBand cal = some (860, 876) ∧ rfFreq cmd = some n ∧ n * 32000000 ≤ f.toNat * 2 ^ 25 ∧ f.toNat * 2 ^ 25 < (n + 1) * 32000000 by
    obtain ⟨l, hb, w, cal, cmd, n, h⟩ := wd_exec key e1
    rw [sent_quiet] at h
    exact ⟨l, w, cal, cmd, n, hb, h⟩
  refine wd_setFreq fun pre m1 m2 hp => ⟨sent pre, [0x98, 0xd7, 0xdb], [0x86, BitVec.ofNat 8 (f.toNat * 2 ^ 25 / 32000000 / 2 ^ 24),
    BitVec.ofNat 8 (f.toNat * 2 ^ 25 / 32000000 / 2 ^ 16), BitVec.ofNat 8 (f.toNat * 2 ^ 25 / 32000000 / 2 ^ 8),
    BitVec.ofNat 8 (f.toNat * 2 ^ 25 / 32000000)], f.toNat * 2 ^ 25 / 32000000, woken hp, ?_, rfl, ?_, ?_, ?_⟩
  · rw [sent_append]
    rfl
  · exact rf_decode hf
  · omega
  · omega

/-- 868.1 MHz, with the chip asleep. -/
example : framesOf true (.setFrequency 868100000) [] = some (.unit, [[0xc0, 0], [0x80, 0], [0x98, 0xd7, 0xdb], [0x86, 0x36, 0x41, 0x99, 0x99]]) := by decide +kernel

/-! ## Power -/

theorem clamped_quiet {l : List Bus} {rd wr : Bytes} (h : Clamped (quiet l) rd wr) : Clamped l rd wr := by
  obtain ⟨h0, m0, m1, m2, m3, v, x, h1, h2⟩ := h
  exact ⟨h0, m0, m1, m2, m3, v, x, mem_quiet h1, h2⟩

theorem clamped {l : List Bus} {a0 a1 a2 a3 v : Byte} (h : .frame [0x1d, 0x08, 0xd8, 0xff, 0xff] [a0, a1, a2, a3, v] ∈ l) :
    Clamped l [0x1d, 0x08, 0xd8, 0xff, 0xff] [0x0d, 0x08, 0xd8, v ||| 0x1e] := by
  refine ⟨rfl, a0, a1, a2, a3, v, _, h, rfl, ?_⟩
  have : ∀ v : Byte, (v ||| 0x1e).toNat / 2 % 16 = 15 ∧ (v ||| 0x1e).toNat % 2 = v.toNat % 2 ∧
      (v ||| 0x1e).toNat / 32 = v.toNat / 32 := by decide +kernel
  exact this v

/-- **C73** `set_power` accepts exactly −17..15 dBm on a low-power and −9..22 dBm on a high-power chip.  It then sends one
SetPaConfig and one SetTxParams command, which together give the requested power with a ramp of 40 µs, after the high-power
workaround of datasheet 15.2 (on such a chip) and setting the over-current limit (register 0x08e7, in steps of 2.5 mA) to 60
or 140 mA; otherwise nothing at all happens on the bus. -/
theorem C73_power {s s' : St} {p : BitVec 8} {tr : Trace} {r : DRet} (e : Exec (step s (.setPower p)) tr (r, s')) :
    ∃ o, s.opts = some o ∧
      ((if o.isHp then -9 ≤ p.toInt ∧ p.toInt ≤ 22 else -17 ≤ p.toInt ∧ p.toInt ≤ 15) →
        r = .bool true ∧ ∃ l w regs pa txp, bus tr = some l ∧ Woken w ∧ sent l = w ++ regs ++ [pa, txp] ∧
          (if o.isHp then ∃ rd wr, Clamped l rd wr ∧ regs = [rd, wr, writeCmd 0x8e7 56] else regs = [writeCmd 0x8e7 24]) ∧
          paPower pa txp = some p.toInt ∧ txp.getLast? = some 0x02) ∧
      (¬(if o.isHp then -9 ≤ p.toInt ∧ p.toInt ≤ 22 else -17 ≤ p.toInt ∧ p.toInt ≤ 15) →
        r = .bool false ∧ tr = [] ∧ s' = s) := by
  cases ho : s.opts with
  | none => simp only [step, ho] at e; exact (Sx127x.exec_fail e).elim
  | some o =>
    refine ⟨o, rfl, fun hp => ?_, fun hp => ?_⟩
    · cases hh : s.hal with
      | none =>
        simp only [step, ho, hh] at e
        cases hx : o.isHp
        · simp only [hx, Bool.false_eq_true, if_false] at hp
          simp only [hx, if_true] at e
          rw [if_neg (by omega)] at e
          exact (Sx127x.exec_fail e).elim
        · simp only [hx, if_true] at hp
          simp only [hx, Bool.true_eq_false, if_false] at e
          rw [if_neg (by omega)] at e
          exact (Sx127x.exec_fail e).elim
      | some hal =>
        simp only [step, ho, hh] at e
        obtain ⟨a, b, e1, hr, _⟩ := exec_with e
        suffices key : wd (setPower o p) s.isSleep fun a _ l => a = true ∧ ∃ w regs pa txp, Woken w ∧ sent l = w ++ regs ++ [pa, txp] ∧
            (if o.isHp then ∃ rd wr, Clamped l rd wr ∧ regs = [rd, wr, writeCmd 0x8e7 56] else regs = [writeCmd 0x8e7 24]) ∧
            paPower pa txp = some p.toInt ∧ txp.getLast? = some 0x02 by
          obtain ⟨l, hb, ha, w, regs, pa, txp, h1, h2, h3, h4⟩ := wd_exec key e1
          rw [sent_quiet] at h2
          refine ⟨by rw [hr]; exact congrArg _ ha, l, w, regs, pa, txp, hb, h1, h2, ?_, h4⟩
          cases hx : o.isHp
          · rwa [hx] at h3
          · rw [hx, if_pos rfl] at h3
            obtain ⟨rd, wr, h3, h5⟩ := h3
            rw [if_pos rfl]
            exact ⟨rd, wr, clamped_quiet h3, h5⟩
        cases hx : o.isHp
        · simp only [hx, Bool.false_eq_true, if_false] at hp
          refine wd_setPower_lp hx hp fun pre m1 m2 m3 hw => ⟨rfl, sent pre, [[0x0d, 0x08, 0xe7, 0x18]],
            [0x95, if p.toInt = 15 then 0x06 else 0x04, 0, 1, 1], [0x8e, if p.toInt = 15 then 14 else p, 2], woken hw, ?_, rfl, ?_, rfl⟩
          · rw [sent_append, List.append_assoc]
            rfl
          · have : ∀ p : BitVec 8, -17 ≤ p.toInt ∧ p.toInt ≤ 15 → paPower [0x95, if p.toInt = 15 then 0x06 else 0x04, 0, 1, 1]
                [0x8e, if p.toInt = 15 then 14 else p, 2] = some p.toInt := by decide +kernel
            exact this p hp
        · simp only [hx, if_true] at hp
          refine wd_setPower_hp hx hp fun pre a0 a1 a2 a3 v m0 m1 m2 m3 hw => ⟨rfl, sent pre,
            [[0x1d, 0x08, 0xd8, 0xff, 0xff], [0x0d, 0x08, 0xd8, v ||| 0x1e], [0x0d, 0x08, 0xe7, 0x38]],
            [0x95, 4, 7, 0, 1], [0x8e, p, 2], woken hw, ?_,
            ⟨_, _, clamped (a0 := a0) (a1 := a1) (a2 := a2) (a3 := a3) (by simp), rfl⟩, ?_, rfl⟩
          · rw [sent_append, List.append_assoc]
            rfl
          · have : ∀ p : BitVec 8, -9 ≤ p.toInt ∧ p.toInt ≤ 22 → paPower [0x95, 4, 7, 0, 1] [0x8e, p, 2] = some p.toInt := by
              decide +kernel
            exact this p hp
    · cases hh : s.hal with
      | none =>
        simp only [step, ho, hh] at e
        cases hx : o.isHp
        · simp only [hx, Bool.false_eq_true, if_false] at hp
          simp only [hx, if_true] at e
          rw [if_pos (by omega)] at e
          obtain ⟨rfl, ex⟩ := exec_ret e
          injection ex with h1 h2
          exact ⟨h1, rfl, h2⟩
        · simp only [hx, if_true] at hp
          simp only [hx, Bool.true_eq_false, if_false] at e
          rw [if_pos (by omega)] at e
          obtain ⟨rfl, ex⟩ := exec_ret e
          injection ex with h1 h2
          exact ⟨h1, rfl, h2⟩
      | some hal =>
        simp only [step, ho, hh, setPower_out hp] at e
        obtain ⟨a, b, e1, hr, hs⟩ := exec_with e
        obtain ⟨rfl, ex⟩ := exec_ret e1
        injection ex with h1 h2
        subst h1 h2
        exact ⟨hr, rfl, hs⟩

/-- High power: 22 dBm accepted, 23 dBm refused. -/
example : (framesOf false (.setPower 22) []).map (fun x => (x.1, x.2.drop 3)) = some (.bool true, [[0x95, 4, 7, 0, 1], [0x8e, 22, 2]]) ∧
    framesOf true (.setPower 23) [] = some (.bool false, []) := by decide +kernel

/-! ## Modem setup -/

/-- **C75** `setup(p)` sends one SetModulationParams command; it decodes to the requested spreading factor, bandwidth and coding
rate, with low-data-rate optimisation for SF11 and SF12. -/
theorem C75_setup {s s' : St} {p : PktParams} {tr : Trace} {r : DRet} (e : Exec (step s (.setup p)) tr (r, s')) :
    ∃ l w cmd, bus tr = some l ∧ Woken w ∧ sent l = w ++ [cmd] ∧
      modParams cmd = some (sfOf p.sf, bwKhz p.bw, crDen p.cr, decide (11 ≤ sfOf p.sf)) := by
  obtain ⟨hal, hh⟩ := hal_of_exec e (by simp) (by simp) (by simp)
  simp only [step, hh] at e
  obtain ⟨a, b, e1, _, _⟩ := exec_with e
  suffices key : wd (setup hal p) s.isSleep fun _ _ l => ∃ w cmd, Woken w ∧ sent l = w ++ [cmd] ∧
      modParams cmd = some (sfOf p.sf, bwKhz p.bw, crDen p.cr, decide (11 ≤ sfOf p.sf)) by
    obtain ⟨l, hb, w, cmd, h⟩ := wd_exec key e1
    rw [sent_quiet] at h
    exact ⟨l, w, cmd, hb, h⟩
  refine wd_setup fun pre m r hp => ⟨sent pre,
    [0x8b, sfTable p.sf, bwTable p.bw, crTable p.cr, if Sx127x.lowDr p.sf then 0x01 else 0x00], woken hp, ?_, ?_⟩
  · rw [sent_append, sent_append, sent_opt, List.append_nil]
    rfl
  · obtain ⟨sf, bw, cr, pre, crc, iq, hdr⟩ := p
    cases sf <;> cases bw <;> cases cr <;> rfl

/-- SF12, 125 kHz, 4/5. -/
example : framesOf false (.setup testParams) [] = some (.unit, [[0x8b, 0x0c, 0x04, 0x01, 0x01]]) := by decide +kernel

/-- The driver remembers the parameters of the last `setup`. -/
theorem pkt_step {s s' : St} {op : DOp} {tr : Trace} {r : DRet} (e : Exec (step s op) tr (r, s')) :
    s'.pkt = (match (motive := DOp → PktParams) op with | .setup p => p | _ => s.pkt) := by
  cases op with
  | init h o =>
    cases h with
    | none =>
      obtain ⟨_, ex⟩ := exec_ret e
      injection ex with _ ex
      rw [ex]
    | some h =>
      cases o with
      | none =>
        obtain ⟨_, ex⟩ := exec_ret e
        injection ex with _ ex
        rw [ex]
      | some o =>
        obtain ⟨_, _, _, _, rfl⟩ := exec_with e
        rfl
  | setEvtHandler b =>
    obtain ⟨_, ex⟩ := exec_ret e
    injection ex with _ ex
    rw [ex]
  | setPower p =>
    cases ho : s.opts with
    | none => simp only [step, ho] at e; exact (Sx127x.exec_fail e).elim
    | some o =>
      cases hh : s.hal with
      | none =>
        simp only [step, ho, hh] at e
        have fin : ∀ {q : Prop} [Decidable q], Exec (if q then pure (DRet.bool false, s) else .fail .nullDeref) tr (r, s') → s'.pkt = s.pkt := by
          intro q _ e
          split at e
          · obtain ⟨_, ex⟩ := exec_ret e
            injection ex with _ ex
            rw [ex]
          · exact (Sx127x.exec_fail e).elim
        split at e
        · exact fin e
        · exact fin e
      | some h =>
        simp only [step, ho, hh] at e
        obtain ⟨_, _, _, _, rfl⟩ := exec_with e
        rfl
  | _ =>
    obtain ⟨hal, hh⟩ := hal_of_exec e (by simp) (by simp) (by simp)
    simp only [step, hh] at e
    obtain ⟨_, _, _, _, rfl⟩ := exec_with e
    rfl

/-- The parameters of the last `setup` call. -/
def lastSetup (log : List DItem) : Option PktParams :=
  log.foldl (fun q x => match x.op with | .setup p => some p | _ => q) none

theorem pkt_calls {log : List DItem} {s : St} (h : Calls step .zero log s) : ∀ p, lastSetup log = some p → s.pkt = p := by
  induction h with
  | nil => intro p h; exact nomatch h
  | @snoc log s s' op tr r hc hv e ih =>
    intro p hl
    simp only [lastSetup, List.foldl_append, List.foldl_cons, List.foldl_nil] at hl
    rw [pkt_step e]
    cases op with
    | setup q => injection hl
    | _ => exact ih p hl

theorem packet_decode (p : PktParams) (len : Byte) : packetParams [0x8c, hi p.preambleLen, lo p.preambleLen,
    if p.implicitHeader then 0x01 else 0x00, len, if p.crcOn then 0x01 else 0x00, if p.invertedIq then 0x01 else 0x00] =
    some ⟨p.preambleLen.toNat, p.implicitHeader, len.toNat, p.crcOn, p.invertedIq⟩ := by
  obtain ⟨sf, bw, cr, pre, crc, iq, hdr⟩ := p
  have : (hi pre).toNat * 256 + (lo pre).toNat = pre.toNat := by
    simp only [hi, lo, BitVec.toNat_setWidth, BitVec.toNat_ushiftRight, Nat.shiftRight_eq_div_pow]
    have := pre.isLt
    omega
  cases crc <;> cases iq <;> cases hdr <;> simp [packetParams, this]

theorem fixed_quiet {q : Bool} {l : List Bus} {rd wr : Bytes} (h : IqFixed q (quiet l) rd wr) : IqFixed q l rd wr := by
  obtain ⟨h0, m0, m1, m2, m3, v, x, h1, h2⟩ := h
  exact ⟨h0, m0, m1, m2, m3, v, x, mem_quiet h1, h2⟩

theorem iq_fixed {q : Bool} {l : List Bus} {a0 a1 a2 a3 v : Byte} (h : .frame [0x1d, 0x07, 0x36, 0xff, 0xff] [a0, a1, a2, a3, v] ∈ l) :
    IqFixed q l [0x1d, 0x07, 0x36, 0xff, 0xff] [0x0d, 0x07, 0x36, if q then v &&& ~~~(0x04 : Byte) else v ||| 0x04] := by
  refine ⟨rfl, a0, a1, a2, a3, v, _, h, rfl, ?_⟩
  have : ∀ (q : Bool) (v : Byte), let x := if q then v &&& ~~~(0x04 : Byte) else v ||| 0x04
      x.toNat / 4 % 2 = (if q then 0 else 1) ∧ x.toNat % 4 = v.toNat % 4 ∧ x.toNat / 8 = v.toNat / 8 := by decide +kernel
  exact this q v

/-- **C75**, **C77** After `setup(p)`, whatever calls in between, `tx` sends first the IQ register fix and packet parameters which decode to
exactly `p`'s preamble length, header mode, CRC and IQ polarity with the number of bytes as payload length;
then base addresses 0, exactly the given bytes at offset 0, and last SetTx without timeout. -/
theorem C77_transmits {log : List DItem} {s s' : St} {p : PktParams} {buf : Bytes} {tr : Trace} {r : DRet}
    (hl : Calls step .zero log s) (hp : lastSetup log = some p) (hb : buf.length ≤ 255)
    (e : Exec (step s (.tx buf)) tr (r, s')) :
    ∃ l w rd wrt pkt, bus tr = some l ∧ Woken w ∧
      sent l = w ++ [rd, wrt, pkt, [0x8f, 0, 0], 0x0e :: 0 :: buf, [0x83, 0, 0, 0]] ∧
      IqFixed p.invertedIq l rd wrt ∧
      packetParams pkt = some ⟨p.preambleLen.toNat, p.implicitHeader, buf.length, p.crcOn, p.invertedIq⟩ := by
  have hpk := pkt_calls hl p hp
  obtain ⟨hal, hh⟩ := hal_of_exec e (by simp) (by simp) (by simp)
  simp only [step, hh, hpk] at e
  obtain ⟨a, b, e1, _, _⟩ := exec_with e
  suffices key : wd (tx hal p buf) s.isSleep fun _ _ l => ∃ w rd wrt pkt, Woken w ∧
      sent l = w ++ [rd, wrt, pkt, [0x8f, 0, 0], 0x0e :: 0 :: buf, [0x83, 0, 0, 0]] ∧
      IqFixed p.invertedIq l rd wrt ∧
      packetParams pkt = some ⟨p.preambleLen.toNat, p.implicitHeader, buf.length, p.crcOn, p.invertedIq⟩ by
    obtain ⟨l, hb, w, rd, wrt, pkt, h1, h2, h3, h4⟩ := wd_exec key e1
    rw [sent_quiet] at h2
    exact ⟨l, w, rd, wrt, pkt, hb, h1, h2, fixed_quiet h3, h4⟩
  refine wd_tx fun pre a0 a1 a2 a3 v n1 n2 m1 m2 m3 r hw => ⟨sent pre, 
    [0x1d, 0x07, 0x36, 0xff, 0xff], 
    [0x0d, 0x07, 0x36, if p.invertedIq then v &&& ~~~(0x04 : Byte) else v ||| 0x04], 
    [0x8c, hi p.preambleLen, lo p.preambleLen, if p.implicitHeader then 0x01 else 0x00, BitVec.ofNat 8 buf.length, if p.crcOn then 0x01 else 0x00, if p.invertedIq then 0x01 else 0x00], woken hw, ?_, iq_fixed (a0 := a0) (a1 := a1) (a2 := a2) (a3 := a3) (by simp [pktFrames]), ?_⟩
  · simp only [sent_append, sent_opt, List.append_assoc]
    rfl
  · rw [packet_decode, toNat_ofNat8]
    congr 2
    omega

/-- Three bytes after `setup` in the history. -/
example : Calls step .zero (madeBy day) (stateBy .zero day) ∧ (lastSetup (madeBy day)).isSome = true ∧
    framesOf false (.tx [7, 8, 9]) [] = some (.unit, [[0x1d, 0x07, 0x36, 0xff, 0xff], [0x0d, 0x07, 0x36, 0x04], [0x8c, 0, 8, 0, 3, 1, 0],
      [0x8f, 0, 0], [0x0e, 0, 7, 8, 9], [0x83, 0, 0, 0]]) := ⟨day_calls, by decide +kernel, by decide +kernel⟩

/-- **C75**, **C84** After `setup(p)`, `rx` sends packet parameters which decode to exactly `p`'s with maximum payload length `len`, the symbol
timeout, base addresses 0, and last SetRx with the timeout: `timeout` ms as multiples of 15.625 µs below 262144 ms,
0 for none, and continuous reception for 0xffffff. -/
theorem C84_receives {log : List DItem} {s s' : St} {p : PktParams} {len : Byte} {symb : U16} {tmo : U32} {tr : Trace} {r : DRet}
    (hl : Calls step .zero log s) (hp : lastSetup log = some p) (ht : tmo.toNat < 262144 ∨ tmo = 0xffffff)
    (e : Exec (step s (.rx len symb tmo)) tr (r, s')) :
    ∃ l w rd wrt pkt sy cmd, bus tr = some l ∧ Woken w ∧ sent l = w ++ [rd, wrt, pkt, [0xa0, sy], [0x8f, 0, 0], cmd] ∧
      IqFixed p.invertedIq l rd wrt ∧ sy.toNat = symb.toNat % 256 ∧
      packetParams pkt = some ⟨p.preambleLen.toNat, p.implicitHeader, len.toNat, p.crcOn, p.invertedIq⟩ ∧
      rxTimeout cmd = some (if tmo = 0xffffff then 0xffffff else tmo.toNat * 64) := by
  have hpk := pkt_calls hl p hp
  obtain ⟨hal, hh⟩ := hal_of_exec e (by simp) (by simp) (by simp)
  simp only [step, hh, hpk] at e
  obtain ⟨a, b, e1, _, _⟩ := exec_with e
  suffices key : wd (rx hal p len symb tmo) s.isSleep fun _ _ l => ∃ w rd wrt pkt sy cmd, Woken w ∧
      sent l = w ++ [rd, wrt, pkt, [0xa0, sy], [0x8f, 0, 0], cmd] ∧
      IqFixed p.invertedIq l rd wrt ∧ sy.toNat = symb.toNat % 256 ∧
      packetParams pkt = some ⟨p.preambleLen.toNat, p.implicitHeader, len.toNat, p.crcOn, p.invertedIq⟩ ∧
      rxTimeout cmd = some (if tmo = 0xffffff then 0xffffff else tmo.toNat * 64) by
    obtain ⟨l, hb, w, rd, wrt, pkt, sy, cmd, h1, h2, h3, h4⟩ := wd_exec key e1
    rw [sent_quiet] at h2
    exact ⟨l, w, rd, wrt, pkt, sy, cmd, hb, h1, h2, fixed_quiet h3, h4⟩
  refine wd_rx fun pre a0 a1 a2 a3 v n1 n2 m1 m2 m3 r hw => ⟨sent pre, 
    [0x1d, 0x07, 0x36, 0xff, 0xff], 
    [0x0d, 0x07, 0x36, if p.invertedIq then v &&& ~~~(0x04 : Byte) else v ||| 0x04], 
    [0x8c, hi p.preambleLen, lo p.preambleLen, if p.implicitHeader then 0x01 else 0x00, len, if p.crcOn then 0x01 else 0x00, if p.invertedIq then 0x01 else 0x00], lo symb, 
    [0x82, ((rxTicks tmo) >>> 16).setWidth 8, ((rxTicks tmo) >>> 8).setWidth 8, (rxTicks tmo).setWidth 8], woken hw, ?_, iq_fixed (a0 := a0) (a1 := a1) (a2 := a2) (a3 := a3) (by simp [pktFrames]), ?_, ?_, ?_⟩
  · simp only [sent_append, sent_opt, List.append_assoc]
    rfl
  · simp [lo]
  · exact packet_decode p len
  · have ticks : (rxTicks tmo).toNat = if tmo = 0xffffff then 0xffffff else tmo.toNat * 64 := by
      unfold rxTicks
      by_cases h1 : tmo = 0xffffff
      · subst h1; rfl
      · have hlt : tmo.toNat < 262144 := ht.resolve_right h1
        rw [if_neg h1]
        by_cases h0 : tmo = 0
        · subst h0; rfl
        · rw [if_pos ⟨h0, h1⟩, BitVec.toNat_shiftLeft, Nat.shiftLeft_eq]
          omega
    have hb : (rxTicks tmo).toNat < 2 ^ 24 := by
      rw [ticks]
      split
      · decide
      · rename_i h1
        have := ht.resolve_right h1
        omega
    rw [← ticks]
    refine congrArg some ?_
    simp only [BitVec.toNat_setWidth, BitVec.toNat_ushiftRight, Nat.shiftRight_eq_div_pow]
    omega

/-- 3000 ms are 192000 ticks. -/
example : (framesOf false (.rx 64 8 3000) []).map (fun x => x.2.drop 3) = some [[0xa0, 8], [0x8f, 0, 0], [0x82, 0x02, 0xee, 0x00]] := by decide +kernel

/-- **C84** A timeout of 262144 ms is not converted exactly: SetRx gets a timeout of 0, which means none. -/
theorem C84_overflow : ∃ tr x, Exec (step { St.zero with hal := some ⟨false, false, false⟩ } (.rx 255 0 262144)) tr x ∧
    ∃ l, bus tr = some l ∧ (sent l).getLast? = some [0x82, 0, 0, 0] := by
  have h : ((step { St.zero with hal := some ⟨false, false, false⟩ } (.rx 255 0 262144)).play scripted []).isSome = true := by
    decide +kernel
  obtain ⟨⟨tr, x, z⟩, hx⟩ := Option.isSome_iff_exists.1 h
  refine ⟨tr, x, Prog.play_exec _ _ _ hx, ?_⟩
  have h2 : ((step { St.zero with hal := some ⟨false, false, false⟩ } (.rx 255 0 262144)).play scripted []).map
      (fun y => (bus y.1).map fun l => (sent l).getLast?) = some (some (some [0x82, 0, 0, 0])) := by decide +kernel
  rw [hx] at h2
  simp only [Option.map_some, Option.some.injEq] at h2
  cases hb : bus tr with
  | none => rw [hb] at h2; exact nomatch h2
  | some l =>
    rw [hb] at h2
    simp only [Option.map_some, Option.some.injEq] at h2
    exact ⟨l, rfl, h2⟩

/-! ## Interrupts and packets -/

/-- **C78** (SX126x) `irq_handler` reads the interrupt status and reports, to the registered handler once and as its result, exactly
the four events flagged; it then clears exactly the flags it read. -/
theorem C78_interrupts {s s' : St} {tr : Trace} {r : DRet} (e : Exec (step s .irqHandler) tr (r, s')) :
    ∃ l w b1 b0 m, bus tr = some l ∧ Woken w ∧ sent l = w ++ [[0x12, 0xff, 0xff, 0xff], [0x02, b1, b0]] ∧
      (∃ a0 a1, Bus.frame [0x12, 0xff, 0xff, 0xff] [a0, a1, b1, b0] ∈ l) ∧
      r = .mask m ∧ maskEvents m = some (flags126 b1 b0) ∧ reported l = if s.handler then [m] else [] := by
  obtain ⟨hal, hh⟩ := hal_of_exec e (by simp) (by simp) (by simp)
  simp only [step, hh] at e
  obtain ⟨m, b, e1, hr, _⟩ := exec_with e
  suffices key : wd (irqHandler s.handler) s.isSleep fun m _ l => ∃ w b1 b0, Woken w ∧
      sent l = w ++ [[0x12, 0xff, 0xff, 0xff], [0x02, b1, b0]] ∧
      (∃ a0 a1, Bus.frame [0x12, 0xff, 0xff, 0xff] [a0, a1, b1, b0] ∈ l) ∧
      maskEvents m = some (flags126 b1 b0) ∧ reported l = if s.handler then [m] else [] by
    obtain ⟨l, hb, w, b1, b0, h1, h2, ⟨a0, a1, h3⟩, h4, h5⟩ := wd_exec key e1
    rw [sent_quiet] at h2
    rw [reported_quiet] at h5
    exact ⟨l, w, b1, b0, m, hb, h1, h2, ⟨a0, a1, mem_quiet h3⟩, hr, h4, h5⟩
  refine wd_irqHandler fun pre a0 a1 b1 b0 m r res hw hm => ⟨sent pre, b1, b0, woken hw, ?_, ⟨a0, a1, by simp⟩, hm, ?_⟩
  · simp only [sent_append, sent_opt, List.append_nil]
    rfl
  · have h0 : reported pre = [] := by generalize s.isSleep = b at hw; cases hw <;> rfl
    rw [reported_append, reported_append, h0]
    cases s.handler <;> rfl

/-- RxDone and Timeout. -/
example : framesOf false .irqHandler [0, 0, 0x02, 0x02] = some (.mask 0x03, [[0x12, 0xff, 0xff, 0xff], [0x02, 0x02, 0x02]]) := by decide +kernel

/-- **C79**, **C85** (SX126x) `read_packet` reports the lesser of the array's and the received length, having replaced that many bytes at
the start of the array by what the chip sent from its buffer at the reported offset and left the rest alone; RSSI = −raw/2
and SNR = raw/4, rounded toward zero. -/
theorem C79_reads {s s' : St} {buf : Bytes} {tr : Trace} {r : DRet} (e : Exec (step s (.readPacket buf)) tr (r, s')) :
    ∃ l w p st data ps a0 a1 n off b0 b1 b2 vs c0 c1 rssi snr sig, bus tr = some l ∧ Woken w ∧ sent l = w ++ [st, data, ps] ∧
      st = [0x13, 0xff, 0xff, 0xff] ∧ Bus.frame st [a0, a1, n, off] ∈ l ∧
      data = 0x1e :: off :: 0xff :: List.replicate p.size 0xff ∧ Bus.frame data (b0 :: b1 :: b2 :: vs) ∈ l ∧
      ps = [0x14, 0xff, 0xff, 0xff, 0xff] ∧ Bus.frame ps [c0, c1, rssi, snr, sig] ∈ l ∧
      r = .pkt p ∧ p.size = min n.toNat buf.length ∧ p.buf = vs ++ buf.drop p.size ∧ vs.length = p.size ∧
      p.buf.length = buf.length ∧ p.rssi.toInt = (-(rssi.toNat : Int)).tdiv 2 ∧ p.snr.toInt = snr.toInt.tdiv 4 := by
  obtain ⟨hal, hh⟩ := hal_of_exec e (by simp) (by simp) (by simp)
  simp only [step, hh] at e
  obtain ⟨p, b, e1, hr, _⟩ := exec_with e
  suffices key : wd (readPacket buf) s.isSleep fun p _ l => ∃ w st data ps a0 a1 n off b0 b1 b2 vs c0 c1 rssi snr sig,
      Woken w ∧ sent l = w ++ [st, data, ps] ∧
      st = [0x13, 0xff, 0xff, 0xff] ∧ Bus.frame st [a0, a1, n, off] ∈ l ∧
      data = 0x1e :: off :: 0xff :: List.replicate p.size 0xff ∧ Bus.frame data (b0 :: b1 :: b2 :: vs) ∈ l ∧
      ps = [0x14, 0xff, 0xff, 0xff, 0xff] ∧ Bus.frame ps [c0, c1, rssi, snr, sig] ∈ l ∧
      p.size = min n.toNat buf.length ∧ p.buf = vs ++ buf.drop p.size ∧ vs.length = p.size ∧
      p.buf.length = buf.length ∧ p.rssi.toInt = (-(rssi.toNat : Int)).tdiv 2 ∧ p.snr.toInt = snr.toInt.tdiv 4 by
    obtain ⟨l, hb, w, st, data, ps, a0, a1, n, off, b0, b1, b2, vs, c0, c1, rssi, snr, sig, h1, h2, h3, h4, h5, h6, h7, h8, h9⟩ :=
      wd_exec key e1
    rw [sent_quiet] at h2
    exact ⟨l, w, p, st, data, ps, a0, a1, n, off, b0, b1, b2, vs, c0, c1, rssi, snr, sig, hb, h1, h2, h3, mem_quiet h4, h5,
      mem_quiet h6, h7, mem_quiet h8, hr, h9⟩
  refine wd_readPacket fun pre a0 a1 n off b0 b1 b2 vs c0 c1 rssi snr sig hw hl => ⟨sent pre, _, _, _, a0, a1, n, off, b0, b1, b2, vs, c0, c1,
    rssi, snr, sig, woken hw, ?_, rfl, ?_, rfl, ?_, rfl, ?_, hl, rfl, rfl, ?_, ?_, ?_⟩
  · rw [sent_append]
    rfl
  · simp
  · simp
  · simp
  · simp only [List.length_append, List.length_drop]
    omega
  · have : ∀ x : Byte, (rssiOf x).toInt = (-(x.toNat : Int)).tdiv 2 := by decide +kernel
    exact this rssi
  · have : ∀ x : Byte, (Sx127x.snrOf x).toInt = x.toInt.tdiv 4 := by decide +kernel
    exact this snr

/-- Two bytes received at offset 0x20, room for three. -/
example : framesOf false (.readPacket [9, 9, 9]) [0, 0, 2, 0x20, 0, 0, 0, 0xaa, 0xbb, 0, 0, 101, 0xf6, 0] = some (.pkt ⟨[0xaa, 0xbb, 9], 2, -50, -2⟩,
    [[0x13, 0xff, 0xff, 0xff], [0x1e, 0x20, 0xff, 0xff, 0xff], [0x14, 0xff, 0xff, 0xff, 0xff]]) := by decide +kernel

/-! ## Framing, sleep, busy line, initialisation -/

/-- **C80** (SX126x) Every finished driver call is well framed on the SPI bus. -/
theorem C80_framed {s s' : St} {op : DOp} {tr : Trace} {r : DRet} (e : Exec (step s op) tr (r, s')) : (bus tr).isSome := by
  obtain ⟨l, hb, _⟩ := drive_step e
  rw [hb]
  rfl

/-- All calls of the history are framed. -/
example : (bus (wire (madeBy day))).isSome = true ∧ (madeBy day).length = 16 := ⟨by decide +kernel, by decide +kernel⟩

/-- **C78** (SX126x) The handler is told last, after the flags are cleared and the bus is free: it may call the driver again. -/
theorem C78_last {s s' : St} {tr : Trace} {m : Byte} (hh : s.handler = true) (e : Exec (step s .irqHandler) tr (.mask m, s')) :
    ∃ tr0 x, tr = tr0 ++ [(.handler m, x)] ∧ (bus tr0).isSome = true := by
  have hf := C80_framed e
  obtain ⟨hal, hl⟩ := hal_of_exec e (by simp) (by simp) (by simp)
  simp only [step, hl] at e
  obtain ⟨m', b, e1, ex, _⟩ := exec_with e
  injection ex with ex
  subst ex
  rw [hh] at e1
  obtain ⟨t1, t2, ⟨buf, b1⟩, rfl, -, e1⟩ := exec_bind e1
  obtain ⟨t3, t4, ⟨_, b2⟩, rfl, -, e1⟩ := exec_bind e1
  dsimp only at e1
  split at e1
  · obtain ⟨t5, t6, ⟨_, b3⟩, rfl, e2, e1⟩ := exec_bind e1
    obtain ⟨rfl, ex⟩ := exec_ret e1
    injection ex with ex _
    subst ex
    obtain ⟨t7, t8, _, rfl, e4, e3⟩ := exec_bind e2
    obtain ⟨rfl, _⟩ := exec_ret e3
    obtain ⟨x, rfl⟩ := exec_optTrue e4
    refine ⟨t1 ++ t3, x, by simp, ?_⟩
    simp only [List.append_nil, ← List.append_assoc] at hf
    exact bus_before hf
  · exact nomatch e1

/-- Timeout. -/
example : (Prog.play scripted [0, 0, 0x02, 0x00] (step { St.zero with hal := some ⟨false, false, false⟩, handler := true } .irqHandler)).map
    (fun x => (x.2.1.1, x.1.getLast?)) = some (.mask 0x01, some (.handler 0x01, 0)) := by decide +kernel

/-- **C90** In every driver call each frame, except for a wake-up GetStatus, directly follows a reading of the BUSY line
that was low. -/
theorem C90_busy {s s' : St} {op : DOp} {tr : Trace} {r : DRet} (e : Exec (step s op) tr (r, s')) :
    ∃ l, bus tr = some l ∧ polled false l = true := by
  obtain ⟨l, hb, h⟩ := drive_step e
  exact ⟨l, hb, drive_polled h false⟩

/-- The predicate rejects a command without a low BUSY line. -/
example : polled false [.frame [0x8a, 1] [0, 0]] = false ∧ polled false [.other .isBusy 1, .frame [0x8a, 1] [0, 0]] = false ∧
    polled false [.other .isBusy 0, .frame [0x8a, 1] [0, 0]] = true := by decide +kernel

/-- **C81** A sleeping SX126x is sent nothing but the wake-up GetStatus in any sequence of driver calls: the chip may have been awake at
the start, or in any state if every `init` was given its options.  The driver then knows when the chip sleeps. -/
theorem C81_woken {log : List DItem} {s : St} (h : Calls step .zero log s) {a : Bool}
    (ha : a = false ∨ ∀ x ∈ log, ∀ hal, x.op ≠ .init hal none) :
    ∃ l a', bus (wire log) = some l ∧ naps a l = some a' ∧ (s.hal ≠ none → a' = true → s.isSleep = true) := by
  suffices key : ∃ l a', bus (wire log) = some l ∧ naps a l = some a' ∧
      ((a = false ∨ s.hal ≠ none) → a' = true → s.isSleep = true) by
    obtain ⟨l, a', h1, h2, h3⟩ := key
    exact ⟨l, a', h1, h2, fun h => h3 (.inr h)⟩
  induction h with
  | nil => exact ⟨[], a, rfl, rfl, fun h ha => h.elim (fun h => by rw [h] at ha; exact nomatch ha) fun h => (h rfl).elim⟩
  | @snoc log s s' op tr r hc hv e ih =>
    obtain ⟨l, a1, hb, hn, hi⟩ := ih (ha.imp id fun h x hx => h x (by simp [hx]))
    obtain ⟨l', hb', hd⟩ := drive_step e
    rw [Sx127x.wire_snoc]
    refine ⟨l ++ l', ?_⟩
    rw [naps_append, hn]
    -- the chip is known to the driver, or nothing is sent, or the chip is reset first
    by_cases hk : a = false ∨ s.hal ≠ none
    · obtain ⟨a2, h1, h2⟩ := drive_naps hd a1 (hi hk)
      exact ⟨a2, bus_append hb hb', h1, fun _ => h2⟩
    · have haf : a ≠ false := fun h => hk (.inl h)
      have hs : s.hal = none := Classical.byContradiction fun h => hk (.inr h)
      have hall := ha.resolve_left haf
      cases op with
      | init hal o =>
        cases o with
        | none => exact (hall ⟨.init hal none, tr, r⟩ (by simp) hal rfl).elim
        | some o =>
          cases hal with
          | none =>
            obtain ⟨rfl, ex⟩ := exec_ret e
            injection ex with _ ex
            simp only [bus, group, Option.some.injEq] at hb'
            subst hb'
            refine ⟨a1, by rw [List.append_nil, List.append_nil]; exact hb, rfl, ?_⟩
            rintro (h | h)
            · exact (haf h).elim
            · rw [ex] at h; exact (h rfl).elim
          | some hal =>
            obtain ⟨x, b, e1, _, rfl⟩ := exec_with e
            obtain ⟨l2, hb2, hq⟩ := wx_init_head hal o s.isSleep _ _ e1
            rw [hb'] at hb2
            injection hb2 with hb2
            subst hb2
            obtain ⟨a2, h1, h2⟩ := hq a1
            exact ⟨a2, bus_append hb hb', h1, fun _ => h2⟩
      | setEvtHandler b =>
        obtain ⟨rfl, ex⟩ := exec_ret e
        injection ex with _ ex
        simp only [bus, group, Option.some.injEq] at hb'
        subst hb'
        refine ⟨a1, by rw [List.append_nil, List.append_nil]; exact hb, rfl, ?_⟩
        rintro (h | h)
        · exact (haf h).elim
        · rw [ex] at h; exact (h hs).elim
      | setPower p =>
        have : tr = [] ∧ s' = s := by
          cases ho : s.opts with
          | none => simp only [step, ho] at e; exact (Sx127x.exec_fail e).elim
          | some o =>
            simp only [step, ho, hs] at e
            have fin : ∀ {q : Prop} [Decidable q], Exec (if q then pure (DRet.bool false, s) else .fail .nullDeref) tr (r, s') → tr = [] ∧ s' = s := by
              intro q _ e
              split at e
              · obtain ⟨rfl, ex⟩ := exec_ret e
                injection ex with _ ex
                exact ⟨rfl, ex⟩
              · exact (Sx127x.exec_fail e).elim
            split at e
            · exact fin e
            · exact fin e
        obtain ⟨rfl, rfl⟩ := this
        simp only [bus, group, Option.some.injEq] at hb'
        subst hb'
        refine ⟨a1, by rw [List.append_nil, List.append_nil]; exact hb, rfl, ?_⟩
        rintro (h | h)
        · exact (haf h).elim
        · exact (h hs).elim
      | _ =>
        obtain ⟨hal, hh⟩ := hal_of_exec e (by simp) (by simp) (by simp)
        rw [hs] at hh
        exact nomatch hh

/-- The history sleeps and wakes the chip; it is fit for an initially sleeping chip too. -/
example : Calls step .zero (madeBy day) (stateBy .zero day) ∧ ((bus (wire (madeBy day))).map fun l => ((sent l).filter (· = [0x84, 0x04])).length) = some 4 ∧
    (bus (wire (madeBy day))).bind (naps true) = some false ∧ naps true [.frame [0x8a, 1] [0, 0]] = none :=
  ⟨day_calls, by decide +kernel, by decide +kernel, by decide +kernel⟩

/-- **C81** After `sleep()` the chip sleeps. -/
theorem C81_sleeps {log : List DItem} {s s' : St} {tr : Trace} {r : DRet} (h : Calls step .zero log s)
    (e : Exec (step s .sleep) tr (r, s')) :
    ∃ l, bus (wire log ++ tr) = some l ∧ naps false l = some true := by
  obtain ⟨l, a, hb, hn, hi⟩ := C81_woken h (a := false) (.inl rfl)
  obtain ⟨hal, hh⟩ := hal_of_exec e (by simp) (by simp) (by simp)
  simp only [step, hh] at e
  obtain ⟨_, b, e1, _, _⟩ := exec_with e
  have hi := hi (by rw [hh]; simp)
  suffices key : wd (sleep hal) s.isSleep fun _ _ l => naps a l = some true by
    obtain ⟨l', hb', hq⟩ := wd_exec key e1
    rw [naps_quiet] at hq
    refine ⟨l ++ l', bus_append hb hb', ?_⟩
    rw [naps_append, hn]
    exact hq
  generalize s.isSleep = b0 at hi
  refine wd_sleep fun pre m r r' hw => ?_
  have hpre : naps a pre = some false := by
    cases hw with
    | awake =>
      cases a with
      | false => rfl
      | true => exact nomatch hi rfl
    | asleep => cases a <;> rfl
  rw [naps_append, naps_append, naps_append, hpre]
  cases hal.ioDeinit <;> rfl

/-- **C83** (SX126x) `init` fails exactly if the HAL or the options are missing or the chip reports a device error.  With either pointer
missing nothing happens on the bus. -/
theorem C83_init {s s' : St} {hal : Option Hal} {o : Option Opts} {tr : Trace} {r : DRet}
    (e : Exec (step s (.init hal o)) tr (r, s')) :
    ((hal = none ∨ o = none) → r = .bool false ∧ tr = []) ∧
    (hal ≠ none → o ≠ none → ∃ l m0 m1 x y ok, bus tr = some l ∧ r = .bool ok ∧
      Bus.frame [0x17, 0xff, 0xff, 0xff] [m0, m1, x, y] ∈ l ∧ ((sent l).filter fun c => c.head? = some 0x17).length = 1 ∧
      (ok = true ↔ x = 0 ∧ y = 0)) := by
  cases hal with
  | none =>
    obtain ⟨rfl, ex⟩ := exec_ret e
    injection ex with ex _
    exact ⟨fun _ => ⟨ex, rfl⟩, fun h => (h rfl).elim⟩
  | some hal =>
    cases o with
    | none =>
      obtain ⟨rfl, ex⟩ := exec_ret e
      injection ex with ex _
      exact ⟨fun _ => ⟨ex, rfl⟩, fun _ h => (h rfl).elim⟩
    | some o =>
      refine ⟨fun h => by simp at h, fun _ _ => ?_⟩
      obtain ⟨ok, b, e1, hr, _⟩ := exec_with e
      suffices key : wd (init hal o) s.isSleep fun ok _ l => ∃ m0 m1 x y,
          Bus.frame [0x17, 0xff, 0xff, 0xff] [m0, m1, x, y] ∈ l ∧ ((sent l).filter fun c => c.head? = some 0x17).length = 1 ∧
          (ok = true ↔ x = 0 ∧ y = 0) by
        obtain ⟨l, hb, m0, m1, x, y, h1, h2, h3⟩ := wd_exec key e1
        rw [sent_quiet] at h2
        exact ⟨l, m0, m1, x, y, ok, hb, hr, mem_quiet h1, h2, h3⟩
      refine wd_init ?_ ?_
      · intro r1 r2 r3 r4 r5 w1 w2 c1 c2 t1 t2 m0 m1 x y he
        refine ⟨m0, m1, x, y, by simp [initHead], ?_, (fun h => nomatch h), fun h => (he h).elim⟩
        simp only [initHead]
        cases hal.ioDeinit <;> cases o.useTcxo <;> rfl
      · intro r1 r2 r3 r4 r5 w1 w2 c1 c2 t1 t2 m0 m1 r6 r7 c3 c4 w3 w4 c5 c6 c7
        refine ⟨m0, m1, 0, 0, by simp [initHead], ?_, ⟨fun _ => ⟨rfl, rfl⟩, fun _ => rfl⟩⟩
        simp only [initHead, initTail]
        cases hal.ioDeinit <;> cases o.useTcxo <;> rfl

/-- A device error, and none. -/
example : (framesOf false (.init (some ⟨true, true, true⟩) (some testOpts)) (List.replicate 20 0 ++ [1])).map Prod.fst = some (.bool false) ∧
    (framesOf false (.init (some ⟨true, true, true⟩) (some testOpts)) []).map Prod.fst = some (.bool true) := by decide +kernel

/-- **C83** (SX126x) does not hold in full: `init` waits for the BUSY line to go low without limit, so with a chip that holds it high (or
a missing chip with the line pulled up) no call of `init` ever finishes. -/
theorem C83_stuck {s s' : St} {hal : Hal} {o : Opts} {tr : Trace} {r : DRet}
    (hb : ∀ x ∈ tr, x.1 = .isBusy → x.2 ≠ 0) : ¬ Exec (step s (.init (some hal) (some o))) tr (r, s') := by
  intro e
  obtain ⟨ok, b, e1, _, _⟩ := exec_with e
  obtain ⟨l, hl, hp⟩ := drive_step e
  have hpl := drive_polled hp false
  suffices key : wd (init hal o) s.isSleep fun _ _ l => [0x07, 0, 0] ∈ sent l by
    obtain ⟨l', hl', hq⟩ := wd_exec key e1
    rw [sent_quiet] at hq
    rw [hl] at hl'
    injection hl' with hl'
    subst hl'
    rcases polled_ready (by decide) hpl hq with h | h
    · exact nomatch h
    · exact hb _ (mem_bus hl h) rfl rfl
  refine wd_init ?_ ?_
  · intro r1 r2 r3 r4 r5 w1 w2 c1 c2 t1 t2 m0 m1 x y he
    simp only [initHead, sent_append]
    simp [sent]
  · intro r1 r2 r3 r4 r5 w1 w2 c1 c2 t1 t2 m0 m1 r6 r7 c3 c4 w3 w4 c5 c6 c7
    simp only [initHead, sent_append]
    simp [sent]

/-- **C84** The TCXO start-up time given to `init` in ms reaches the chip exactly, with the voltage selection; without a TCXO nothing of the
kind is sent. -/
theorem C84_tcxo {s s' : St} {hal : Hal} {o : Opts} {tr : Trace} {r : DRet}
    (e : Exec (step s (.init (some hal) (some o))) tr (r, s')) :
    ∃ l, bus tr = some l ∧ (sent l).filterMap tcxo = if o.useTcxo then [(o.tcxoVoltage, o.tcxoTimeout.toNat * 64)] else [] := by
  obtain ⟨ok, b, e1, hr, _⟩ := exec_with e
  suffices key : wd (init hal o) s.isSleep fun ok _ l =>
      (sent l).filterMap tcxo = if o.useTcxo then [(o.tcxoVoltage, o.tcxoTimeout.toNat * 64)] else [] by
    obtain ⟨l, hb, h⟩ := wd_exec key e1
    rw [sent_quiet] at h
    exact ⟨l, hb, h⟩
  have conv : ((((o.tcxoTimeout.setWidth 32 : U32) <<< 6) >>> 16).setWidth 8 : Byte).toNat * 2 ^ 16 +
      ((((o.tcxoTimeout.setWidth 32 : U32) <<< 6) >>> 8).setWidth 8 : Byte).toNat * 2 ^ 8 +
      (((o.tcxoTimeout.setWidth 32 : U32) <<< 6).setWidth 8 : Byte).toNat = o.tcxoTimeout.toNat * 64 := by
    have := o.tcxoTimeout.isLt
    simp only [BitVec.toNat_setWidth, BitVec.toNat_ushiftRight, BitVec.toNat_shiftLeft, Nat.shiftRight_eq_div_pow, Nat.shiftLeft_eq]
    omega
  refine wd_init ?_ ?_
  · intro r1 r2 r3 r4 r5 w1 w2 c1 c2 t1 t2 m0 m1 x y he
    simp only [initHead]
    cases hal.ioDeinit <;> cases o.useTcxo <;> first | rfl | exact congrArg (fun n => [(o.tcxoVoltage, n)]) conv
  · intro r1 r2 r3 r4 r5 w1 w2 c1 c2 t1 t2 m0 m1 r6 r7 c3 c4 w3 w4 c5 c6 c7
    simp only [initHead, initTail]
    cases hal.ioDeinit <;> cases o.useTcxo <;> first | rfl | exact congrArg (fun n => [(o.tcxoVoltage, n)]) conv

/-- 10 ms are 640 ticks. -/
example : (framesOf false (.init (some ⟨true, true, true⟩) (some testOpts)) []).map (fun x => x.2.filterMap tcxo) = some [(2, 640)] := by decide +kernel

/-! ## The configuration over a sequence of calls -/

/-- The chip holds what was asked for. -/
structure Good (w : Wish) (c : Held) : Prop where
  lora : w.up = true → c.lora = true
  modulation : w.up = true → ∀ p, w.setup = some p →
    c.modulation = some (sfOf p.sf, bwKhz p.bw, crDen p.cr, decide (11 ≤ sfOf p.sf))
  freq : w.up = true → ∀ f : U32, w.freq = some f → f.toNat ≤ 4095000000 →
    ∃ n, c.rf = some n ∧ n * 32000000 ≤ f.toNat * 2 ^ 25 ∧ f.toNat * 2 ^ 25 < (n + 1) * 32000000
  power : w.up = true → ∀ p, w.power = some p → ∃ pa txp, c.pa = some pa ∧ c.txp = some txp ∧ paPower pa txp = some p.toInt
  sync : w.up = true → c.reg 0x740 = (if w.isPublic then 0x34 else 0x14) ∧ c.reg 0x741 = (if w.isPublic then 0x44 else 0x24)

theorem run_append (por : Nat → Byte) : ∀ (a b : List Bus) (c : Held), c.run por (a ++ b) = (c.run por a).run por b
  | [], _, _ => rfl
  | x :: a, b, c => run_append por a b (c.next por x)

theorem run_quiet (por : Nat → Byte) : ∀ (l : List Bus) (c : Held), c.run por (quiet l) = c.run por l
  | [], _ => rfl
  | .frame o m :: l, c => by simp only [quiet, Held.run]; exact run_quiet por l _
  | .other k r :: l, c => by
    cases k <;> simp only [quiet, Held.run] <;> first | exact run_quiet por l _ | exact run_quiet por l c

theorem run_wake {por : Nat → Byte} {c : Held} {b : Bool} {pre : List Bus} (h : Wake b pre) : c.run por pre = c := by
  cases h <;> rfl

theorem run_opt {por : Nat → Byte} {c : Held} {t : Bool} {k : Call} {r : Byte} (h : ∀ b, k ≠ .reset b) :
    c.run por (if t then [.other k r] else []) = c := by
  cases t
  · rfl
  · cases k <;> first | rfl | exact (h _ rfl).elim

/-- Setting the packet parameters changes only the register of the IQ fix. -/
theorem run_pkt {por : Nat → Byte} {c : Held} {p : PktParams} {len a0 a1 a2 a3 v : Byte} {n1 n2 : Bytes} :
    ∃ x, c.run por (pktFrames p len a0 a1 a2 a3 v n1 n2) = { c with reg := put c.reg 0x736 x } := ⟨_, rfl⟩

theorem good_put {w : Wish} {c : Held} {a : Nat} {x : Byte} (h : Good w c) (h0 : a ≠ 0x740) (h1 : a ≠ 0x741) :
    Good w { c with reg := put c.reg a x } :=
  ⟨h.lora, h.modulation, h.freq, h.power, fun hu => by
    simp only [put]
    rw [if_neg (Ne.symm h0), if_neg (Ne.symm h1)]
    exact h.sync hu⟩

/-- Every call brings the chip to hold what was asked for. -/
theorem good_step (por : Nat → Byte) {s s' : St} {op : DOp} {tr : Trace} {r : DRet} {w : Wish} {c : Held} (hg : Good w c)
    (e : Exec (step s op) tr (r, s')) : ∃ l, bus tr = some l ∧ Good (w.next ⟨op, tr, r⟩) (c.run por l) := by
  have fin : ∀ {α : Type} {d : Drv α} {b : Bool} {a : α} {b' : Bool} {G : α → Held → Prop}, wd d b (fun a _ l => G a (c.run por l)) →
      Exec (d b) tr (a, b') → ∃ l, bus tr = some l ∧ G a (c.run por l) := by
    intro α d b a b' G key e1
    obtain ⟨l, hb, h⟩ := wd_exec key e1
    rw [run_quiet] at h
    exact ⟨l, hb, h⟩
  cases op with
  | init hal o =>
    have down : ∀ {c' : Held} {r : DRet}, r = .bool false → Good (w.next ⟨.init hal o, tr, r⟩) c' := by
      rintro c' r rfl
      exact ⟨nofun, nofun, nofun, nofun, nofun⟩
    cases hal with
    | none =>
      obtain ⟨rfl, ex⟩ := exec_ret e
      injection ex with ex _
      exact ⟨[], rfl, down ex⟩
    | some hal =>
      cases o with
      | none =>
        obtain ⟨rfl, ex⟩ := exec_ret e
        injection ex with ex _
        exact ⟨[], rfl, down ex⟩
      | some o =>
        obtain ⟨ok, b, e1, hr, _⟩ := exec_with e
        suffices key : wd (init hal o) s.isSleep fun ok _ l => ok = true → (c.run por l).lora = true ∧
            (c.run por l).reg 0x740 = 0x34 ∧ (c.run por l).reg 0x741 = 0x44 by
          obtain ⟨l, hb, h⟩ := fin (G := fun ok c => ok = true → c.lora = true ∧ c.reg 0x740 = 0x34 ∧ c.reg 0x741 = 0x44) key e1
          refine ⟨l, hb, ?_⟩
          subst hr
          cases ok with
          | false => exact down rfl
          | true =>
            obtain ⟨h1, h2⟩ := h rfl
            exact ⟨fun _ => h1, fun _ _ h => (nomatch h), fun _ _ h => (nomatch h), fun _ _ h => (nomatch h), fun _ => h2⟩
        refine wd_init ?_ ?_
        · intro r1 r2 r3 r4 r5 w1 w2 c1 c2 t1 t2 m0 m1 x y he h
          exact nomatch h
        · intro r1 r2 r3 r4 r5 w1 w2 c1 c2 t1 t2 m0 m1 r6 r7 c3 c4 w3 w4 c5 c6 c7 _
          simp only [initTail, run_append]
          rw [run_opt (by simp)]
          simp [Held.run, Held.next, putAll, put]
  | setEvtHandler b =>
    obtain ⟨rfl, _⟩ := exec_ret e
    exact ⟨[], rfl, hg⟩
  | setPower p =>
    obtain ⟨o, ho, hin, hout⟩ := C73_power e
    by_cases hp : if o.isHp then -9 ≤ p.toInt ∧ p.toInt ≤ 22 else -17 ≤ p.toInt ∧ p.toInt ≤ 15
    · obtain ⟨hr, _⟩ := hin hp
      subst hr
      cases hh : s.hal with
      | none =>
        simp only [step, ho, hh] at e
        exfalso
        cases hx : o.isHp
        · simp only [hx, Bool.false_eq_true, if_false] at hp
          simp only [hx, if_true] at e
          rw [if_neg (by omega)] at e
          exact (Sx127x.exec_fail e).elim
        · simp only [hx, if_true] at hp
          simp only [hx, Bool.true_eq_false, if_false] at e
          rw [if_neg (by omega)] at e
          exact (Sx127x.exec_fail e).elim
      | some hal =>
        simp only [step, ho, hh] at e
        obtain ⟨a, b, e1, _, _⟩ := exec_with e
        show ∃ l, bus tr = some l ∧ Good { w with power := some p } (c.run por l)
        refine fin (G := fun _ c => Good { w with power := some p } c) ?_ e1
        cases hx : o.isHp
        · simp only [hx, Bool.false_eq_true, if_false] at hp
          refine wd_setPower_lp hx hp fun pre m1 m2 m3 hw => ?_
          rw [run_append, run_wake hw]
          refine ⟨hg.lora, hg.modulation, hg.freq, ?_, fun hu => by
            simpa [Held.run, Held.next, putAll, put] using hg.sync hu⟩
          rintro _ _ ⟨⟩
          have : ∀ p : BitVec 8, -17 ≤ p.toInt ∧ p.toInt ≤ 15 → paPower [0x95, if p.toInt = 15 then 0x06 else 0x04, 0, 1, 1]
              [0x8e, if p.toInt = 15 then 14 else p, 2] = some p.toInt := by decide +kernel
          exact ⟨_, _, rfl, rfl, this p hp⟩
        · simp only [hx, if_true] at hp
          refine wd_setPower_hp hx hp fun pre a0 a1 a2 a3 v m0 m1 m2 m3 hw => ?_
          rw [run_append, run_wake hw]
          refine ⟨hg.lora, hg.modulation, hg.freq, ?_, fun hu => by
            simpa [Held.run, Held.next, putAll, put] using hg.sync hu⟩
          rintro _ _ ⟨⟩
          have : ∀ p : BitVec 8, -9 ≤ p.toInt ∧ p.toInt ≤ 22 → paPower [0x95, 4, 7, 0, 1] [0x8e, p, 2] = some p.toInt := by
            decide +kernel
          exact ⟨_, _, rfl, rfl, this p hp⟩
    · obtain ⟨rfl, rfl, _⟩ := hout hp
      exact ⟨[], rfl, hg⟩
  | setFrequency f =>
    obtain ⟨hal, hh⟩ := hal_of_exec e (by simp) (by simp) (by simp)
    simp only [step, hh] at e
    obtain ⟨a, b, e1, _, _⟩ := exec_with e
    refine fin (G := fun _ c => Good { w with freq := some f } c) ?_ e1
    refine wd_setFreq fun pre m1 m2 hw => ?_
    rw [run_append, run_wake hw]
    refine ⟨hg.lora, hg.modulation, ?_, hg.power, hg.sync⟩
    rintro _ _ ⟨⟩ hf
    refine ⟨f.toNat * 2 ^ 25 / 32000000, rf_decode hf, ?_, ?_⟩ <;> omega
  | setPublicNetwork pub =>
    obtain ⟨hal, hh⟩ := hal_of_exec e (by simp) (by simp) (by simp)
    simp only [step, hh] at e
    obtain ⟨a, b, e1, _, _⟩ := exec_with e
    refine fin (G := fun _ c => Good { w with isPublic := pub } c) ?_ e1
    refine wd_setPublicNetwork fun pre m hw => ?_
    rw [run_append, run_wake hw]
    cases pub
    · exact ⟨hg.lora, hg.modulation, hg.freq, hg.power, fun _ => by simp [Held.run, Held.next, putAll, put]⟩
    · exact ⟨hg.lora, hg.modulation, hg.freq, hg.power, fun _ => by simp [Held.run, Held.next, putAll, put]⟩
  | setup p =>
    obtain ⟨hal, hh⟩ := hal_of_exec e (by simp) (by simp) (by simp)
    simp only [step, hh] at e
    obtain ⟨a, b, e1, _, _⟩ := exec_with e
    refine fin (G := fun _ c => Good { w with setup := some p } c) ?_ e1
    refine wd_setup fun pre m r hw => ?_
    rw [run_append, run_append, run_wake hw, run_opt (by simp)]
    refine ⟨hg.lora, ?_, hg.freq, hg.power, hg.sync⟩
    rintro hu _ ⟨⟩
    have hl : c.lora = true := hg.lora hu
    simp only [Held.run, Held.next, hl, if_true]
    obtain ⟨sf, bw, cr, pre, crc, iq, hdr⟩ := p
    cases sf <;> cases bw <;> cases cr <;> rfl
  | sleep =>
    obtain ⟨hal, hh⟩ := hal_of_exec e (by simp) (by simp) (by simp)
    simp only [step, hh] at e
    obtain ⟨a, b, e1, _, _⟩ := exec_with e
    refine fin (G := fun _ c => Good w c) ?_ e1
    refine wd_sleep fun pre m r r' hw => ?_
    rw [run_append, run_append, run_append, run_wake hw, run_opt (by simp)]
    exact hg
  | tx buf =>
    obtain ⟨hal, hh⟩ := hal_of_exec e (by simp) (by simp) (by simp)
    simp only [step, hh] at e
    obtain ⟨a, b, e1, _, _⟩ := exec_with e
    refine fin (G := fun _ c => Good w c) ?_ e1
    refine wd_tx fun pre a0 a1 a2 a3 v n1 n2 m1 m2 m3 r hw => ?_
    obtain ⟨x, hx⟩ := run_pkt (por := por) (c := c) (p := s.pkt) (len := BitVec.ofNat 8 buf.length) (a0 := a0) (a1 := a1) (a2 := a2) (a3 := a3) (v := v) (n1 := n1) (n2 := n2)
    rw [run_append, run_append, run_append, run_append, run_wake hw, run_opt (by simp), hx]
    exact good_put hg (by decide) (by decide)
  | rx len symb tmo =>
    obtain ⟨hal, hh⟩ := hal_of_exec e (by simp) (by simp) (by simp)
    simp only [step, hh] at e
    obtain ⟨a, b, e1, _, _⟩ := exec_with e
    refine fin (G := fun _ c => Good w c) ?_ e1
    refine wd_rx fun pre a0 a1 a2 a3 v n1 n2 m1 m2 m3 r hw => ?_
    obtain ⟨x, hx⟩ := run_pkt (por := por) (c := c) (p := s.pkt) (len := len) (a0 := a0) (a1 := a1) (a2 := a2) (a3 := a3) (v := v) (n1 := n1) (n2 := n2)
    rw [run_append, run_append, run_append, run_append, run_wake hw, run_opt (by simp), hx]
    exact good_put hg (by decide) (by decide)
  | readPacket buf =>
    obtain ⟨hal, hh⟩ := hal_of_exec e (by simp) (by simp) (by simp)
    simp only [step, hh] at e
    obtain ⟨a, b, e1, _, _⟩ := exec_with e
    refine fin (G := fun _ c => Good w c) ?_ e1
    refine wd_readPacket fun pre a0 a1 n off b0 b1 b2 vs c0 c1 rssi snr sig hw hl => ?_
    rw [run_append, run_wake hw]
    exact hg
  | rand =>
    obtain ⟨hal, hh⟩ := hal_of_exec e (by simp) (by simp) (by simp)
    simp only [step, hh] at e
    obtain ⟨a, b, e1, _, _⟩ := exec_with e
    refine fin (G := fun _ c => Good w c) ?_ e1
    refine wd_rand fun pre a0 a1 a2 a3 v n1 n2 m1 m2 m3 r d0 d1 d2 d3 x0 x1 x2 x3 m4 r1 r2 hw => ?_
    obtain ⟨x, hx⟩ := run_pkt (por := por) (c := c) (p := s.pkt) (len := 0xff) (a0 := a0) (a1 := a1) (a2 := a2) (a3 := a3) (v := v) (n1 := n1) (n2 := n2)
    rw [run_append, run_append, run_append, run_append, run_append, run_append, run_wake hw, run_opt (by simp), run_opt (by simp), hx]
    exact good_put hg (by decide) (by decide)
  | irqHandler =>
    obtain ⟨hal, hh⟩ := hal_of_exec e (by simp) (by simp) (by simp)
    simp only [step, hh] at e
    obtain ⟨a, b, e1, _, _⟩ := exec_with e
    refine fin (G := fun _ c => Good w c) ?_ e1
    refine wd_irqHandler fun pre a0 a1 b1 b0 m r res hw hm => ?_
    rw [run_append, run_append, run_wake hw, run_opt (by simp)]
    exact hg

/-- **C92** After any sequence of driver calls whose last `init` succeeded, sleeping and waking included, the SX126x is in LoRa mode
and holds the frequency, power, modulation and sync word last asked for. -/
theorem C92_held (por : Nat → Byte) (c : Held) {log : List DItem} {s : St} (h : Calls step .zero log s) :
    ∃ l, bus (wire log) = some l ∧ Good (wish log) (c.run por l) := by
  induction h with
  | nil => exact ⟨[], rfl, nofun, nofun, nofun, nofun, nofun⟩
  | @snoc log s s' op tr r hc hv e ih =>
    obtain ⟨l, hb, hg⟩ := ih
    obtain ⟨l', hb', hg'⟩ := good_step por hg e
    refine ⟨l ++ l', ?_, ?_⟩
    · rw [Sx127x.wire_snoc]
      exact bus_append hb hb'
    · rw [run_append]
      simpa [wish, List.foldl_append] using hg'

/-- The history asks for 868.1 MHz, 16 dBm and the private network, sleeping in between. -/
example : (wish (madeBy day)).up = true ∧ (wish (madeBy day)).freq = some 868100000 ∧ (wish (madeBy day)).power = some 16 ∧
    (wish (madeBy day)).isPublic = false ∧ (wish (madeBy day)).setup.isSome = true :=
  ⟨by decide +kernel, by decide +kernel, by decide +kernel, by decide +kernel, by decide +kernel⟩

/-! ## Random numbers -/

/-- **C88** (SX126x) `rand` starts continuous reception, reads the chip's four random bytes, returns them as one number (the first lowest) and
leaves the chip asleep. -/
theorem C88_rand {s s' : St} {tr : Trace} {r : DRet} (e : Exec (step s .rand) tr (r, s')) :
    ∃ l cs d0 d1 d2 d3 x0 x1 x2 x3 v, bus tr = some l ∧
      sent l = cs ++ [[0x82, 0xff, 0xff, 0xff], [0x1d, 0x08, 0x19, 0xff, 0xff, 0xff, 0xff, 0xff], [0x84, 0x04]] ∧
      Bus.frame [0x1d, 0x08, 0x19, 0xff, 0xff, 0xff, 0xff, 0xff] [d0, d1, d2, d3, x0, x1, x2, x3] ∈ l ∧
      r = .rand v false ∧ v.toNat = x0.toNat + x1.toNat * 2 ^ 8 + x2.toNat * 2 ^ 16 + x3.toNat * 2 ^ 24 := by
  obtain ⟨hal, hh⟩ := hal_of_exec e (by simp) (by simp) (by simp)
  simp only [step, hh] at e
  obtain ⟨v, b, e1, hr, _⟩ := exec_with e
  suffices key : wd (rand hal s.pkt) s.isSleep fun v _ l => ∃ cs d0 d1 d2 d3 x0 x1 x2 x3,
      sent l = cs ++ [[0x82, 0xff, 0xff, 0xff], [0x1d, 0x08, 0x19, 0xff, 0xff, 0xff, 0xff, 0xff], [0x84, 0x04]] ∧
      Bus.frame [0x1d, 0x08, 0x19, 0xff, 0xff, 0xff, 0xff, 0xff] [d0, d1, d2, d3, x0, x1, x2, x3] ∈ l ∧
      v.toNat = x0.toNat + x1.toNat * 2 ^ 8 + x2.toNat * 2 ^ 16 + x3.toNat * 2 ^ 24 by
    obtain ⟨l, hb, cs, d0, d1, d2, d3, x0, x1, x2, x3, h1, h2, h3⟩ := wd_exec key e1
    rw [sent_quiet] at h1
    exact ⟨l, cs, d0, d1, d2, d3, x0, x1, x2, x3, v, hb, h1, mem_quiet h2, hr, h3⟩
  refine wd_rand fun pre a0 a1 a2 a3 v n1 n2 m1 m2 m3 r d0 d1 d2 d3 x0 x1 x2 x3 m4 r1 r2 hw =>
    ⟨sent pre ++ sent (pktFrames s.pkt 0xff a0 a1 a2 a3 v n1 n2) ++ [[0xa0, 0], [0x8f, 0, 0]], d0, d1, d2, d3, x0, x1, x2, x3, ?_, ?_, ?_⟩
  · simp only [sent_append, sent_opt, List.append_assoc]
    rfl
  · simp
  · rw [or32_toNat]
    simp only [leNat]
    omega

/-- The four random bytes come after 29 bytes of setting up. -/
example : (framesOf false .rand (List.replicate 29 0 ++ [1, 2, 3, 4])).map Prod.fst = some (.rand 0x04030201 false) := by decide +kernel

/-! ## Undefined behaviour -/

/-- Whether the last `init` was given both pointers. -/
def given (log : List DItem) : Bool :=
  log.foldl (fun g x => match x.op with | .init h o => h.isSome && o.isSome | _ => g) false

theorem keep_step {s s' : St} {op : DOp} {tr : Trace} {r : DRet} (e : Exec (step s op) tr (r, s')) :
    (s'.hal, s'.opts) = (match (motive := DOp → Option Hal × Option Opts) op with | .init h o => (h, o) | _ => (s.hal, s.opts)) := by
  cases op with
  | init h o =>
    cases h with
    | none =>
      obtain ⟨_, ex⟩ := exec_ret e
      injection ex with _ ex
      rw [ex]
    | some h =>
      cases o with
      | none =>
        obtain ⟨_, ex⟩ := exec_ret e
        injection ex with _ ex
        rw [ex]
      | some o =>
        obtain ⟨_, _, _, _, rfl⟩ := exec_with e
        rfl
  | setEvtHandler b =>
    obtain ⟨_, ex⟩ := exec_ret e
    injection ex with _ ex
    rw [ex]
  | setPower p =>
    cases ho : s.opts with
    | none => simp only [step, ho] at e; exact (Sx127x.exec_fail e).elim
    | some o =>
      cases hh : s.hal with
      | none =>
        simp only [step, ho, hh] at e
        have fin : ∀ {q : Prop} [Decidable q], Exec (if q then pure (DRet.bool false, s) else .fail .nullDeref) tr (r, s') → s' = s := by
          intro q _ e
          split at e
          · obtain ⟨_, ex⟩ := exec_ret e
            injection ex with _ ex
          · exact (Sx127x.exec_fail e).elim
        have : s' = s := by
          split at e
          · exact fin e
          · exact fin e
        rw [this, hh, ho]
      | some h =>
        simp only [step, ho, hh] at e
        obtain ⟨_, _, _, _, rfl⟩ := exec_with e
        rw [← hh, ← ho]
  | _ =>
    obtain ⟨hal, hh⟩ := hal_of_exec e (by simp) (by simp) (by simp)
    simp only [step, hh] at e
    obtain ⟨_, _, _, _, rfl⟩ := exec_with e
    first | rfl | simp only [hh]

theorem given_calls {log : List DItem} {s : St} (h : Calls step .zero log s) (hg : given log = true) :
    (∃ hal, s.hal = some hal) ∧ ∃ o, s.opts = some o := by
  induction h with
  | nil => exact nomatch hg
  | @snoc log s s' op tr r hc hv e ih =>
    simp only [given, List.foldl_append, List.foldl_cons, List.foldl_nil] at hg
    have hk := keep_step e
    cases op with
    | init h o =>
      injection hk with h1 h2
      simp only [Bool.and_eq_true] at hg
      exact ⟨by rw [h1]; exact Option.isSome_iff_exists.1 hg.1, by rw [h2]; exact Option.isSome_iff_exists.1 hg.2⟩
    | _ =>
      injection hk with h1 h2
      rw [h1, h2]
      exact ih hg

theorem safe_with {α : Type} {s : St} {d : Drv α} {f : α → DRet} (h : wd d s.isSleep fun _ _ _ => True) : (with_ s d f).Safe :=
  safe_bind h.1 fun _ _ _ => trivial

/-- **C87** (SX126x) Once `init` has been called with HAL and options, no driver call reaches undefined behaviour, whatever the chip
answers. -/
theorem C87_safe {log : List DItem} {s : St} (h : Calls step .zero log s) (hg : given log = true) {op : DOp} (_hv : op.Valid) :
    (step s op).Safe := by
  obtain ⟨⟨hal, hh⟩, o, ho⟩ := given_calls h hg
  cases op with
  | init h o =>
    cases h with
    | none => exact trivial
    | some h =>
      cases o with
      | none => exact trivial
      | some o => exact safe_with (wd_init (fun _ _ _ _ _ _ _ _ _ _ _ _ _ _ _ _ => trivial) fun _ _ _ _ _ _ _ _ _ _ _ _ _ _ _ _ _ _ _ _ _ _ => trivial)
  | setEvtHandler b => exact trivial
  | setPower p =>
    simp only [step, hh, ho]
    by_cases hp : if o.isHp then -9 ≤ p.toInt ∧ p.toInt ≤ 22 else -17 ≤ p.toInt ∧ p.toInt ≤ 15
    · cases hx : o.isHp
      · simp only [hx, Bool.false_eq_true, if_false] at hp
        exact safe_with (wd_setPower_lp hx hp fun _ _ _ _ _ => trivial)
      · simp only [hx, if_true] at hp
        exact safe_with (wd_setPower_hp hx hp fun _ _ _ _ _ _ _ _ _ _ _ => trivial)
    · rw [setPower_out hp]
      exact trivial
  | sleep => simp only [step, hh]; exact safe_with (wd_sleep fun _ _ _ _ _ => trivial)
  | setFrequency f => simp only [step, hh]; exact safe_with (wd_setFreq fun _ _ _ _ => trivial)
  | setPublicNetwork p => simp only [step, hh]; exact safe_with (wd_setPublicNetwork fun _ _ _ => trivial)
  | setup p => simp only [step, hh]; exact safe_with (wd_setup fun _ _ _ _ => trivial)
  | tx buf => simp only [step, hh]; exact safe_with (wd_tx fun _ _ _ _ _ _ _ _ _ _ _ _ _ => trivial)
  | rx len symb tmo => simp only [step, hh]; exact safe_with (wd_rx fun _ _ _ _ _ _ _ _ _ _ _ _ _ => trivial)
  | readPacket buf => simp only [step, hh]; exact safe_with (wd_readPacket fun _ _ _ _ _ _ _ _ _ _ _ _ _ _ _ _ => trivial)
  | rand =>
    simp only [step, hh]
    exact safe_with (wd_rand fun _ _ _ _ _ _ _ _ _ _ _ _ _ _ _ _ _ _ _ _ _ _ _ _ => trivial)
  | irqHandler => simp only [step, hh]; exact safe_with (wd_irqHandler fun _ _ _ _ _ _ _ _ _ _ => trivial)

/-- The history is one such, and transmitting one such call. -/
example : Calls step .zero (madeBy day) (stateBy .zero day) ∧ lastInit (madeBy day) ≠ none ∧ (DOp.tx [1, 2, 3]).Valid :=
  ⟨day_calls, by decide +kernel, by decide⟩

/-- After an `init` without HAL, which fails, a driver call goes through a null pointer even though an earlier `init` succeeded. -/
theorem C87_null_init {s : St} : ∃ tr r s', Exec (step s (.init none none)) tr (r, s') ∧ ¬ (step s' .sleep).Safe :=
  ⟨[], .bool false, { s with hal := none, opts := none }, .ret _, fun h => h⟩

/-! ## Low-data-rate optimisation -/

/-- **C94** (SX126x) At 125 kHz low-data-rate optimisation is switched on exactly if a symbol, of 2^SF/BW, takes longer than 16 ms. -/
theorem C94_ldro_partial {s s' : St} {p : PktParams} {tr : Trace} {r : DRet} (hb : p.bw = .bw125) (e : Exec (step s (.setup p)) tr (r, s')) :
    ∃ l w cmd sf bw cr opt, bus tr = some l ∧ Woken w ∧ sent l = w ++ [cmd] ∧ modParams cmd = some (sf, bw, cr, opt) ∧
      (opt = true ↔ 2 ^ sf > 16 * bw) := by
  obtain ⟨l, w, cmd, h1, h2, h3, h4⟩ := C75_setup e
  refine ⟨l, w, cmd, _, _, _, _, h1, h2, h3, h4, ?_⟩
  rw [hb]
  cases p.sf <;> decide

/-- What is missing from C94: SF11 at 250 kHz has symbols of 8.2 ms, yet optimisation is switched on. -/
theorem C94_sf11_bw250 {s s' : St} {p : PktParams} {tr : Trace} {r : DRet} (hs : p.sf = .sf11) (hb : p.bw = .bw250)
    (e : Exec (step s (.setup p)) tr (r, s')) :
    ∃ l w cmd cr, bus tr = some l ∧ Woken w ∧ sent l = w ++ [cmd] ∧ modParams cmd = some (11, 250, cr, true) ∧ ¬ 2 ^ 11 > 16 * 250 := by
  obtain ⟨l, w, cmd, h1, h2, h3, h4⟩ := C75_setup e
  rw [hs, hb] at h4
  exact ⟨l, w, cmd, _, h1, h2, h3, h4, by decide⟩

end Uwan.Sx126x
