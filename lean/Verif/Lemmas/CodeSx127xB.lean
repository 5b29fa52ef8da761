import Verif.Lemmas.CodeSx127x

/-! # The loops of the SX127x driver, and the functions that use them -/

namespace Uwan.C.Drv
open Sx127x (writeReg writeRegs readReg setOpMode)

section
variable {L k : Nat} {g : Objs} (fs : List Objs) (ans : ChipAns) (w : Wire) (t : Ty) {h : Hal}

/-! ### Frequency and calibration -/

theorem call_setFreq (hg : HalAt g h) (n : Int) : ∃ w', follow ans (Sx127x.setFreq (BitVec.ofInt 32 n)) w = .ok ((), w') ∧
    call (chipHost ans) dprog L (k + 1) "sx127x_set_freq" [.int t n] ⟨g, fs, w⟩ = .ok (.null, ⟨g, fs, w'⟩) := by
  refine ⟨_, by simp only [Sx127x.setFreq, follow_writeRegs]; rfl, ?_⟩
  rw [dcall_lib _ (by decide +kernel)]
  show (match g.get "hal" with
    | some [.ptr _] => (match follow ans (Sx127x.setFreq (BitVec.ofInt 32 n)) w with
      | Except.ok (_, w) => (Except.ok (.null, ⟨g, fs, w⟩) : Except Fault (Val × Mem Wire))
      | Except.error _ => Except.error .stuck)
    | _ => Except.error .null) = _
  rw [hg.hal]
  simp only [globPtr, Sx127x.setFreq, follow_writeRegs]

/-- The variables of `rx_calibartion`. -/
def calFrame (t : Int) (v : Byte) : Objs := [("timeout", [.int .u8 t]), ("value", [.int .u8 v.toNat])]

/-- The body of the loop of `rx_calibartion`. -/
def calBody : Stmt :=
  (.seq (.expr (.post .sub (.loc "timeout")))
                      (.seq (.expr (.call (.load (.fld (.elem (.load (.glob "hal")) (.lit .i32 0)) ".delay_us")) (.cons (.lit .i32 1000) (.nil))))
                        (.expr (.asg (.loc "value") (.call (.fn "read_reg") (.cons (.lit .i32 59) (.nil)))))))
/-- Its condition. -/
def calCond : Expr := (.and (.bin .ne (.load (.loc "timeout")) (.lit .i32 0)) (.bin .and (.load (.loc "value")) (.bin .shl (.lit .i32 1) (.lit .i32 5))))

theorem cal_body (hg : HalAt g h) (n : Nat) (hn : n < 255) (v : Byte) : exec ⟨chipHost ans, call (chipHost ans) dprog L (k + 2), L⟩ calBody ⟨g, calFrame (n + 1 : Nat) v :: fs, w⟩ =
    .ok (.next, ⟨g, calFrame n (rdVal ans (w.did ans (.delay 1000)) 0x3b) :: fs, rdTo ans (w.did ans (.delay 1000)) 0x3b⟩) := by
  have hr : BitVec.ofInt 8 59 = (0x3b : Byte) := rfl
  simp only [calBody, calFrame]
  have hs : ((n + 1 : Nat) : Int) - 1 = n := by omega
  crun [hg.hal, hg.delay, run_read_reg _ _ _ _ hg, hr, hs]

theorem calLoop_text (hg : HalAt g h) (C : Ctx Wire) (hC : C = ⟨chipHost ans, call (chipHost ans) dprog L (k + 2), L⟩) : ∀ (n R : Nat) (v : Byte) (w : Wire), n < R → n < 255 →
    ∃ n' v' w', follow ans (if n ≠ 0 ∧ v &&& 0x20 ≠ 0 then Sx127x.calLoop n else pure n) w = .ok (n', w') ∧ n' < 255 ∧
    iter (M.bind (eval C calCond) isTrue) (M.pure .next) (exec C calBody) R ⟨g, calFrame n v :: fs, w⟩ = .ok (.next, ⟨g, calFrame n' v' :: fs, w'⟩) := by
  subst hC
  intro n
  induction n with
  | zero =>
    intro R v w hR hn
    obtain ⟨R, rfl⟩ : ∃ q, R = q + 1 := ⟨R - 1, by omega⟩
    refine ⟨0, v, w, by simp only [ne_eq, not_true_eq_false, false_and, if_false]; rfl, by omega, ?_⟩
    apply iter_out
    simp only [calFrame, calCond]
    crun []
  | succ n ih =>
    intro R v w hR hn
    obtain ⟨R, rfl⟩ : ∃ q, R = q + 1 := ⟨R - 1, by omega⟩
    have e4 : (ofBits .i32 (bits (v.toNat : Int) &&& bits (2 ^ 5)) = 0) = (v &&& 32 = 0) := propext (flag_text v 32)
    by_cases hv : v &&& 0x20 = 0
    · refine ⟨n + 1, v, w, by rw [if_neg (fun h => h.2 hv)]; rfl, by omega, ?_⟩
      apply iter_out
      simp only [calFrame, calCond]
      crun [e4, hv, decide_true]
    · obtain ⟨n', v', w', h1, h2, h3⟩ := ih R (rdVal ans (w.did ans (.delay 1000)) 0x3b) (rdTo ans (w.did ans (.delay 1000)) 0x3b) (by omega) (by omega)
      refine ⟨n', v', w', ?_, h2, ?_⟩
      · rw [if_pos ⟨by omega, hv⟩]
        simp only [Sx127x.calLoop, follow_bind, follow_do, fthen_ok, follow_readReg]
        exact h1
      · rw [iter_next (m' := ⟨g, calFrame n (rdVal ans (w.did ans (.delay 1000)) 0x3b) :: fs, rdTo ans (w.did ans (.delay 1000)) 0x3b⟩)
          (m'' := ⟨g, calFrame n (rdVal ans (w.did ans (.delay 1000)) 0x3b) :: fs, rdTo ans (w.did ans (.delay 1000)) 0x3b⟩) (o := .next)]
        · exact h3
        · simp only [calFrame, calCond]
          crun [e4, hv, decide_false]
        · exact cal_body _ _ _ hg n (by omega) v
        · rfl

theorem run_calibration (hg : HalAt g h) (hL : 256 ≤ L) : ∃ b w', follow ans Sx127x.rxCalibration w = .ok (b, w') ∧
    call (chipHost ans) dprog L (k + 3) "rx_calibartion" [] ⟨g, fs, w⟩ = .ok (boolVal b, ⟨g, fs, w'⟩) := by
  have hz : BitVec.ofInt 32 868800000 = (868800000 : U32) := rfl
  have hr : BitVec.ofInt 8 59 = (0x3b : Byte) := rfl
  generalize hC : (⟨chipHost ans, call (chipHost ans) dprog L (k + 2), L⟩ : Ctx Wire) = C
  obtain ⟨w1, f1, c1⟩ := call_setFreq (L := L) (k := k + 1) ([] :: fs) ans w .i32 hg 868800000
  generalize hw2 : wrTo ans (rdTo ans w1 0x3b) 0x3b [rdVal ans w1 0x3b ||| 0x40] = w2
  obtain ⟨n', v', w', f2, hn', c2⟩ := calLoop_text (L := L) (k := k) fs ans hg C hC.symm 254 L (rdVal ans (w2.did ans (.delay 1000)) 0x3b) (rdTo ans (w2.did ans (.delay 1000)) 0x3b) (by omega) (by omega)
  have c3 := cal_body (L := L) (k := k) fs ans w2 hg 254 (by omega) (rdVal ans w1 0x3b ||| 0x40)
  rw [hC] at c3
  have hd : exec C (.doWhile calBody calCond) ⟨g, calFrame (255 : Nat) (rdVal ans w1 0x3b ||| 0x40) :: fs, w2⟩ = .ok (.next, ⟨g, calFrame n' v' :: fs, w'⟩) := by
    show M.bind _ _ _ = _
    unfold M.bind
    rw [c3, ← hC]
    rw [← hC] at c2
    exact c2
  rw [hz] at f1
  refine ⟨n' != 0, w', ?_, ?_⟩
  · simp only [Sx127x.rxCalibration, follow_bind, f1, fthen_ok, follow_readReg, follow_writeReg, hw2]
    show fthen (follow ans (Prog.do_ (.delay 1000) >>= fun _ => readReg 0x3b >>= fun value => if 254 ≠ 0 ∧ value &&& 0x20 ≠ 0 then Sx127x.calLoop 254 else pure 254) w2) _ = _
    simp only [follow_bind, follow_do, fthen_ok, follow_readReg]
    rw [f2]
    rfl
  · rw [dcall_fun _ _ _ (f := Sx127xSrc.rx_calibartion) (by rfl)]
    simp only [Sx127xSrc.rx_calibartion]
    simp only [calFrame, calBody, calCond, Int.cast_ofNat_Int] at hd
    have hl : BitVec.ofInt 8 (2 ^ 6) = (64 : Byte) := rfl
    subst hC
    have hb : decide ((n' : Int) = 0) = decide (n' = 0) := decide_eq_decide.mpr (by omega)
    drun [hg.hal, c1, run_read_reg _ _ _ _ hg, run_write_reg _ _ _ _ hg, hr, hl, hw2, hd, hb]
    have : (n' != 0) = !decide (n' = 0) := by
      by_cases h0 : n' = 0 <;> simp [h0]
    rw [this]

theorem run_init (hg : HalAt (g.put "hal" [globPtr "radio_hal"]) h) (v : Val) (hv : v = .null ∨ v = globPtr "radio_hal") (hh : g.get "hal" = some [v]) (hL : 256 ≤ L) :
    ∃ b w', follow ans (Sx127x.init h) w = .ok (b, w') ∧
    call (chipHost ans) dprog L (k + 4) "sx127x_init" [globPtr "radio_hal", .null] ⟨g, fs, w⟩ = .ok (boolVal b, ⟨g.put "hal" [globPtr "radio_hal"], fs, w'⟩) := by
  rw [dcall_fun _ _ _ (f := Sx127xSrc.sx127x_init) (by rfl)]
  simp only [Sx127xSrc.sx127x_init]
  have hr : BitVec.ofInt 8 66 = (0x42 : Byte) := rfl
  have hg1 := hg.hal
  have hg2 := hg.reset
  have hg3 := hg.delay
  have hio := hg.ioDeinit
  have hrs : ∀ fs w, call (chipHost ans) dprog L (k + 3) "sx127x_set_public_network" [.int .i32 1] ⟨g.put "hal" [globPtr "radio_hal"], fs, w⟩ =
      .ok (.null, ⟨g.put "hal" [globPtr "radio_hal"], fs, syncTo ans w true⟩) := fun fs w => run_sync fs ans w hg true
  generalize hg0 : g.put "hal" [globPtr "radio_hal"] = g' at *
  simp only [globPtr] at hg0
  generalize hd4 : (((w.did ans (.reset true)).did ans (.delay 150)).did ans (.reset false)).did ans (.delay 6000) = d4
  generalize hw5 : (if h.ioDeinit then d4.did ans .ioDeinit else d4) = w5
  by_cases hver : rdVal ans w5 0x42 = 0x12
  · have hvi : ((rdVal ans w5 0x42).toNat : Int) = 18 := by rw [hver]; rfl
    obtain ⟨b, w6, f6, c6⟩ := run_calibration (L := L) (k := k) ([("r_hal", [globPtr "radio_hal"]), ("opts", [.null])] :: fs) ans (rdTo ans w5 0x42) hg hL
    simp only [globPtr] at c6
    cases b with
    | false =>
      refine ⟨false, w6, ?_, ?_⟩
      · simp only [Sx127x.init]
        fol [hd4, hw5, hver, f6, ne_eq, not_true_eq_false, if_false, if_true]
      · rcases hv with rfl | rfl <;> cases hd : h.ioDeinit <;> simp only [hd, optFn, Bool.false_eq_true, if_false, if_true] at hio hw5 <;>
        drun [hg0, hg1, hg2, hg3, hio, hh, hd4, hw5, run_read_reg _ _ _ _ hg, hr, hvi, c6, decide_true]
    | true =>
      refine ⟨true, wrTo ans (wrTo ans (syncTo ans (wrTo ans (wrTo ans w6 0x01 [0x00]) 0x01 [0x80]) true) 0x0a [0x08]) 0x0c [0x23], ?_, ?_⟩
      · simp only [Sx127x.init]
        fol [hd4, hw5, hver, f6, follow_sync, ne_eq, not_true_eq_false, if_false, Bool.true_eq_false]
      · rcases hv with rfl | rfl <;> cases hd : h.ioDeinit <;> simp only [hd, optFn, Bool.false_eq_true, if_false, if_true] at hio hw5 <;>
        drun [hg0, hg1, hg2, hg3, hio, hh, hd4, hw5, run_read_reg _ _ _ _ hg, run_write_reg _ _ _ _ hg, hr, hvi, c6, hrs, decide_true] <;> rfl
  · have hvi : ¬ ((rdVal ans w5 0x42).toNat : Int) = 18 := fun h => hver (BitVec.eq_of_toNat_eq (by have : (0x12 : Byte).toNat = 18 := rfl; omega))
    refine ⟨false, rdTo ans w5 0x42, ?_, ?_⟩
    · simp only [Sx127x.init]
      fol [hd4, hw5]
      rw [if_pos hver]
      rfl
    · rcases hv with rfl | rfl <;> cases hd : h.ioDeinit <;> simp only [hd, optFn, Bool.false_eq_true, if_false, if_true] at hio hw5 <;>
      drun [hg0, hg1, hg2, hg3, hio, hh, hd4, hw5, run_read_reg _ _ _ _ hg, hr, hvi, decide_false] <;> rfl

/-! ### Random numbers -/

theorem bit_cases (f : Byte) : f &&& 1 = 0 ∨ f &&& 1 = 1 := by
  revert f
  decide +kernel

theorem bit_text (f : Byte) : ofBits .i32 (bits (f.toNat : Int) &&& bits 1) = ((f &&& 1).toNat : Int) := by
  revert f
  decide +kernel

theorem shl_bit (i : Nat) (hi : i < 32) : (if (0 : Int) ≤ 1 ∧ 1 * (2 : Int) ^ i ≤ 2147483647 then 1 * (2 : Int) ^ i else ((1 * (2 : Int) ^ i).bmod 4294967296)) = ((1 : U32) <<< i).toInt ∧
    (¬ ((0 : Int) ≤ 1 ∧ 1 * (2 : Int) ^ i ≤ 2147483647) ↔ i = 31) := by
  have h : ∀ i : Fin 32, (if (0 : Int) ≤ 1 ∧ 1 * (2 : Int) ^ i.val ≤ 2147483647 then 1 * (2 : Int) ^ i.val else ((1 * (2 : Int) ^ i.val).bmod 4294967296)) = ((1 : U32) <<< i.val).toInt ∧
    (¬ ((0 : Int) ≤ 1 ∧ 1 * (2 : Int) ^ i.val ≤ 2147483647) ↔ i.val = 31) := by decide +kernel
  exact h ⟨i, hi⟩

theorem rand_shift (f : Byte) (i : Nat) (hi : i < 32) (tr : Trace) (o : Bool) : shift (chipHost ans) .shl .i32 (ofBits .i32 (bits (f.toNat : Int) &&& bits 1)) (i : Int) ⟨g, fs, ⟨tr, o⟩⟩ =
    .ok (.int .i32 (((f &&& 1).setWidth 32 <<< i).toInt), ⟨g, fs, ⟨tr, o || (i == 31 && f &&& 1 != 0)⟩⟩) := by
  rw [bit_text]
  unfold shift
  rw [if_pos (by omega), if_neg (by decide), if_neg (by decide), Int.toNat_natCast]
  rcases bit_cases f with h | h
  · rw [h]
    rw [if_pos (by simp)]
    simp
  · rw [h]
    have := shl_bit i hi
    have h1n : ((BitVec.toNat (1 : Byte) : Nat) : Int) = 1 := rfl
    rw [h1n]
    by_cases h1 : ((0 : Int) ≤ 1 ∧ 1 * (2 : Int) ^ i ≤ 2147483647)
    · have h31 : ¬ i = 31 := fun h => this.2.mpr h h1
      have h2 := this.1
      rw [if_pos h1] at h2
      rw [if_pos h1, h2]
      simp [h31]
    · have h31 : i = 31 := this.2.mp h1
      have h2 := this.1
      rw [if_neg h1] at h2
      rw [if_neg h1, h2, h31]
      show _ = Except.ok (_, (⟨g, fs, ⟨tr, o || true⟩⟩ : Mem Wire))
      rw [Bool.or_true]
      rfl

theorem or_text (r y : U32) : ofBits .u32 (bits (r.toNat : Int) ||| bits (y.toInt % 4294967296)) % 4294967296 = ((r ||| y).toNat : Int) := by
  have h1 : bits (r.toNat : Int) = r := by
    unfold bits
    apply BitVec.eq_of_toNat_eq
    simp
  have h2 : bits (y.toInt % 4294967296) = y := by
    unfold bits
    apply BitVec.eq_of_toNat_eq
    have := y.isLt
    rw [BitVec.toNat_ofInt]
    simp only [BitVec.toInt]
    split <;> omega
  rw [h1, h2]
  show (((r ||| y).toNat : Int)) % 4294967296 = _
  have := (r ||| y).isLt
  omega

/-- The variables of `sx127x_rand`. -/
def randFrame (i : Int) (r : U32) (v : Val) : Objs := [("i", [.int .i32 i]), ("random", [.int .u32 r.toNat]), ("rssi", [v])]

theorem randLoop_text (hg : HalAt g h) (C : Ctx Wire) (hC : C = ⟨chipHost ans, call (chipHost ans) dprog L (k + 2), L⟩) (o : Bool) : ∀ (n i R : Nat) (r : U32) (ub : Bool) (v : Val) (tr : Trace),
    i + n = 32 → n < R → (v = .uninit (some .u8) ∨ ∃ x : Byte, v = byteVal x) → ∃ r' ub' tr' v', follow ans (Sx127x.randLoop n i r ub) ⟨tr, o⟩ = .ok ((r', ub'), ⟨tr', o⟩) ∧
    iter (M.bind (eval C (.bin .lt (.load (.loc "i")) (.lit .i32 32))) isTrue) (exec C (.expr (.post .add (.loc "i"))))
      (exec C (.seq (.expr (.call (.load (.fld (.elem (.load (.glob "hal")) (.lit .i32 0)) ".delay_us")) (.cons (.lit .i32 1000) (.nil))))
                      (.seq (.expr (.asg (.loc "rssi") (.call (.fn "read_reg") (.cons (.lit .i32 44) (.nil)))))
                        (.expr (.asgOp .or (.loc "random") (.bin .shl (.bin .and (.load (.loc "rssi")) (.lit .i32 1)) (.load (.loc "i")))))))) R
      ⟨g, randFrame i r v :: fs, ⟨tr, ub⟩⟩ = .ok (.next, ⟨g, randFrame 32 r' v' :: fs, ⟨tr', ub'⟩⟩) := by
  subst hC
  intro n
  induction n with
  | zero =>
    intro i R r ub v tr hi hR _
    obtain ⟨R, rfl⟩ : ∃ q, R = q + 1 := ⟨R - 1, by omega⟩
    obtain rfl : i = 32 := by omega
    refine ⟨r, ub, tr, v, rfl, ?_⟩
    apply iter_out
    simp only [randFrame]
    crun []
    rfl
  | succ n ih =>
    intro i R r ub v tr hi hR hv
    obtain ⟨R, rfl⟩ : ∃ q, R = q + 1 := ⟨R - 1, by omega⟩
    have hr : BitVec.ofInt 8 44 = (0x2c : Byte) := rfl
    generalize hx : rdVal ans (Wire.did ans ⟨tr, ub⟩ (.delay 1000)) 0x2c = x
    generalize ht : (rdTo ans (Wire.did ans ⟨tr, ub⟩ (.delay 1000)) 0x2c).tr = t1
    have hw1 : rdTo ans (Wire.did ans ⟨tr, ub⟩ (.delay 1000)) 0x2c = ⟨t1, ub⟩ := by rw [← ht]; rfl
    have hx0 : rdVal ans (Wire.did ans ⟨tr, o⟩ (.delay 1000)) 0x2c = x := hx
    have hw0 : rdTo ans (Wire.did ans ⟨tr, o⟩ (.delay 1000)) 0x2c = ⟨t1, o⟩ := by rw [← ht]; rfl
    obtain ⟨r', ub', tr', v', h1, h2⟩ := ih (i + 1) R (r ||| ((x &&& 1).setWidth 32 <<< i)) (ub || (i == 31 && x &&& 1 != 0)) (byteVal x) t1 (by omega) (by omega) (.inr ⟨x, rfl⟩)
    refine ⟨r', ub', tr', v', ?_, ?_⟩
    · simp only [Sx127x.randLoop, follow_bind, follow_do, fthen_ok, follow_readReg, hx0, hw0]
      exact h1
    · rw [iter_next (m' := ⟨g, randFrame i (r ||| ((x &&& 1).setWidth 32 <<< i)) (byteVal x) :: fs, ⟨t1, ub || (i == 31 && x &&& 1 != 0)⟩⟩)
        (m'' := ⟨g, randFrame (i + 1 : Nat) (r ||| ((x &&& 1).setWidth 32 <<< i)) (byteVal x) :: fs, ⟨t1, ub || (i == 31 && x &&& 1 != 0)⟩⟩) (o := .next)]
      · exact h2
      · simp only [randFrame]
        crun []
      · have hs := fun fs => rand_shift (g := g) fs ans x i (by omega) t1 ub
        simp only [randFrame]
        rcases hv with rfl | ⟨y, rfl⟩ <;>
          crun [hg.hal, hg.delay, run_read_reg _ _ _ _ hg, hr, hx, hw1, hs, or_text]
      · simp only [randFrame]
        crun []
        simp only [Int.natCast_add, Int.natCast_one]

theorem run_rand (hg : HalAt g h) (hL : 256 ≤ L) (tr : Trace) : ∃ r ub tr', follow ans Sx127x.rand ⟨tr, false⟩ = .ok ((r, ub), ⟨tr', false⟩) ∧
    call (chipHost ans) dprog L (k + 4) "sx127x_rand" [] ⟨g, fs, ⟨tr, false⟩⟩ = .ok (u32Val r, ⟨g, fs, ⟨tr', ub⟩⟩) := by
  rw [dcall_fun _ _ _ (f := Sx127xSrc.sx127x_rand) (by rfl)]
  simp only [Sx127xSrc.sx127x_rand]
  generalize hw1 : modeTo ans (wrTo ans ⟨tr, false⟩ 0x11 [0xff]) 0x05 = w1
  have hw1' : modeTo ans (wrTo ans ⟨tr, false⟩ 0x11 [0xff]) 0x05 = ⟨w1.tr, false⟩ := by rw [← hw1]; rfl
  have e1 : BitVec.ofInt 8 17 = (0x11 : Byte) := rfl
  have e2 : BitVec.ofInt 8 255 = (0xff : Byte) := rfl
  have e3 : BitVec.ofInt 8 5 = (0x05 : Byte) := rfl
  have hw1o : w1 = ⟨w1.tr, false⟩ := by rw [← hw1]; rfl
  obtain ⟨r, ub, tr2, v2, f2, c2⟩ := randLoop_text (L := L) (k := k + 1) fs ans hg _ rfl false 32 0 L 0 false (.uninit (some .u8)) w1.tr (by omega) (by omega) (.inl rfl)
  refine ⟨r, ub, (modeTo ans ⟨tr2, false⟩ 0x00).tr, ?_, ?_⟩
  · simp only [Sx127x.rand]
    fol [follow_setOpMode, hw1]
    rw [hw1o, f2]
    fol [follow_setOpMode]
    rfl
  · have hr0 : ((0 : U32).toNat : Int) = 0 := rfl
    simp only [randFrame, hr0, Int.natCast_zero] at c2
    drun [run_write_reg _ _ _ _ hg, run_set_op_mode _ _ _ _ hg, e1, e2, e3, hw1', exec_loop, c2]
    rfl

/-! ### Packets -/

theorem snr_range : ∀ b : Byte, -128 ≤ b.toInt.tdiv 4 ∧ b.toInt.tdiv 4 ≤ 127 := by decide +kernel

theorem snr_text (b : Byte) : quot .i32 b.toInt 4 = .ok (.int .i32 (b.toInt.tdiv 4)) := by
  have := snr_range b
  unfold quot
  rw [if_neg (by decide)]
  crun []

theorem run_packet (hg : HalAt g h) (hL : 256 ≤ L) (o : BitVec 16) (ho : g.get "rssi_offset" = some [.int .i16 o.toInt]) (buf : Bytes) (hb : buf.length ≤ 255)
    (x1 : g.get "buf" = some (buf.map byteVal)) (x2 : g.get "pkt.data" = some [globPtr "buf"]) (x3 : g.get "pkt.size" = some [.int .u8 buf.length])
    (x4 : g.get "pkt.rssi" = some [.int .i16 0]) (x5 : g.get "pkt.snr" = some [.int .i8 0]) : ∃ p w', follow ans (Sx127x.readPacket o buf) w = .ok (p, w') ∧
    p.buf.length = buf.length ∧ p.size ≤ 255 ∧
    call (chipHost ans) dprog L (k + 4) "sx127x_read_packet" [globPtr "pkt"] ⟨g, fs, w⟩ =
      .ok (.null, ⟨(((g.put "buf" (p.buf.map byteVal)).put "pkt.size" [.int .u8 p.size]).put "pkt.rssi" [.int .i16 p.rssi.toInt]).put "pkt.snr" [.int .i8 p.snr.toInt], fs, w'⟩) := by
  rw [dcall_fun _ _ _ (f := Sx127xSrc.sx127x_read_packet) (by rfl)]
  simp only [Sx127xSrc.sx127x_read_packet]
  have e1 : BitVec.ofInt 8 16 = (0x10 : Byte) := rfl
  have e2 : BitVec.ofInt 8 13 = (0x0d : Byte) := rfl
  have e3 : BitVec.ofInt 8 19 = (0x13 : Byte) := rfl
  have e4 : BitVec.ofInt 8 25 = (0x19 : Byte) := rfl
  have e5 : BitVec.ofInt 8 26 = (0x1a : Byte) := rfl
  generalize hf : rdVal ans w 0x10 = fp
  generalize hw1 : wrTo ans (rdTo ans w 0x10) 0x0d [fp] = w1
  generalize hz : rdVal ans w1 0x13 = z
  generalize hw2 : rdTo ans w1 0x13 = w2
  have hzl := z.isLt
  generalize hn : (if z.toNat > buf.length then buf.length else z.toNat) = n
  have hnb : n ≤ buf.length := by rw [← hn]; split <;> omega
  obtain ⟨b', w3, f3, l3, c3⟩ : ∃ b' w3, follow ans (if n > 0 then Sx127x.readArray 0x00 buf n else pure buf) w2 = .ok (b', w3) ∧ b'.length = buf.length ∧
      (if n > 0 then call (chipHost ans) dprog L (k + 3) "read_array" [globPtr "radio_hal", .int .i32 0, globPtr "buf", .int .u8 n]
        ⟨g, [("fifo_ptr", [.int .u8 fp.toNat]), ("size", [.int .u8 n]), ("pkt", [globPtr "pkt"])] :: fs, w2⟩ =
        .ok (.null, ⟨g.put "buf" (b'.map byteVal), [("fifo_ptr", [.int .u8 fp.toNat]), ("size", [.int .u8 n]), ("pkt", [globPtr "pkt"])] :: fs, w3⟩)
      else g.put "buf" (b'.map byteVal) = g ∧ w3 = w2) := by
    by_cases h0 : n > 0
    · simp only [h0, if_true]
      exact run_read_array (L := L) (k := k + 1) _ ans w2 .i32 hg buf x1 n (by omega) hnb hL 0 .u8
    · simp only [h0, if_false]
      exact ⟨buf, w2, rfl, rfl, Objs.put_get x1, rfl⟩
  have hg3 := hg.put (x := "buf") (by simp) (b'.map byteVal)
  generalize hrs : rdVal ans w3 0x19 = s1
  generalize hw4 : rdTo ans w3 0x19 = w4
  generalize hrr : rdVal ans w4 0x1a = s2
  generalize hw5 : rdTo ans w4 0x1a = w5
  refine ⟨⟨b', n, o + s2.setWidth 16, Sx127x.snrOf s1⟩, w5, ?_, l3, (by show n ≤ 255; omega), ?_⟩
  · simp only [Sx127x.readPacket]
    fol [hf, hw1, hz, hw2, hn]
    by_cases h0 : n > 0
    · simp only [h0, if_true] at f3 ⊢
      fol [f3, hrs, hw4, hrr, hw5]
    · simp only [h0, if_false] at f3 ⊢
      fol [f3, hrs, hw4, hrr, hw5]
  · have y3 := (Objs.get_put_other g "buf" "pkt.size" (b'.map byteVal) (by decide)).trans x3
    have y4 := (Objs.get_put_other g "buf" "pkt.rssi" (b'.map byteVal) (by decide)).trans x4
    have y5 := (Objs.get_put_other g "buf" "pkt.snr" (b'.map byteVal) (by decide)).trans x5
    have yo := (Objs.get_put_other g "buf" "rssi_offset" (b'.map byteVal) (by decide)).trans ho
    generalize hg0 : g.put "buf" (b'.map byteVal) = g1 at *
    have z4 := fun v => (Objs.get_put_other g1 "pkt.size" "pkt.rssi" v (by decide)).trans y4
    have z5 := fun v => (Objs.get_put_other g1 "pkt.size" "pkt.snr" v (by decide)).trans y5
    have zo := fun v => (Objs.get_put_other g1 "pkt.size" "rssi_offset" v (by decide)).trans yo
    have v5 := fun u v => (Objs.get_put_other (g1.put "pkt.size" u) "pkt.rssi" "pkt.snr" v (by decide)).trans (z5 u)
    have o1 := BitVec.toInt_lt (x := o)
    have o2 := BitVec.le_toInt (x := o)
    have o3 := s2.isLt
    have q1 : Ty.i8.conv (s1.toNat : Int) = s1.toInt := (BitVec.toInt_eq_toNat_bmod s1).symm
    have q2 : Ty.i16.conv (o.toInt + (s2.toNat : Int)) = (o + s2.setWidth 16).toInt := by
      rw [BitVec.toInt_add]
      show (o.toInt + (s2.toNat : Int)).bmod 65536 = (o.toInt + (s2.setWidth 16).toInt).bmod 65536
      have : (s2.setWidth 16).toInt = (s2.toNat : Int) := by
        rw [BitVec.toInt_eq_toNat_of_lt (by rw [BitVec.toNat_setWidth]; omega), BitVec.toNat_setWidth]
        omega
      rw [this]
    have q3 : Ty.i8.conv (s1.toInt.tdiv 4) = (Sx127x.snrOf s1).toInt := by
      unfold Sx127x.snrOf
      rw [BitVec.toInt_ofInt]
      rfl
    have q4 := BitVec.toInt_lt (x := s1)
    have q5 := BitVec.le_toInt (x := s1)
    simp only [globPtr] at c3
    by_cases hc : z.toNat > buf.length
    · simp only [hc, if_true] at hn
      subst hn
      by_cases h0 : buf.length > 0
      · simp only [h0, if_true] at c3
        drun [hg.hal, x2, x3, run_read_reg _ _ _ _ hg, run_write_reg _ _ _ _ hg, run_read_reg _ _ _ _ hg3, e1, e2, e3, e4, e5, hf, hw1, hz, hw2, c3, hrs, hw4, hrr, hw5, y3, z4, zo, v5, q1, q2, q3, snr_text]
      · simp only [h0, if_false] at c3
        obtain ⟨c3, rfl⟩ := c3
        subst c3
        drun [hg.hal, x2, x3, run_read_reg _ _ _ _ hg, run_write_reg _ _ _ _ hg, e1, e2, e3, e4, e5, hf, hw1, hz, hw2, hrs, hw4, hrr, hw5, z4, zo, v5, q1, q2, q3, snr_text]
    · simp only [hc, if_false] at hn
      subst hn
      by_cases h0 : z.toNat > 0
      · simp only [h0, if_true] at c3
        drun [hg.hal, x2, x3, run_read_reg _ _ _ _ hg, run_write_reg _ _ _ _ hg, run_read_reg _ _ _ _ hg3, e1, e2, e3, e4, e5, hf, hw1, hz, hw2, c3, hrs, hw4, hrr, hw5, y3, z4, zo, v5, q1, q2, q3, snr_text]
      · simp only [h0, if_false] at c3
        obtain ⟨c3, rfl⟩ := c3
        subst c3
        drun [hg.hal, x2, x3, run_read_reg _ _ _ _ hg, run_write_reg _ _ _ _ hg, e1, e2, e3, e4, e5, hf, hw1, hz, hw2, hrs, hw4, hrr, hw5, z4, zo, v5, q1, q2, q3, snr_text]
end
end Uwan.C.Drv
