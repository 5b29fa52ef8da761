import Verif.Lemmas.CodeWire

/-! # The functions of the SX127x driver, as the program text performs them -/

namespace Uwan.C.Drv
open Sx127x (writeReg writeRegs readReg setOpMode)

section
variable {L k : Nat} {g : Objs} (fs : List Objs) (ans : ChipAns) (w : Wire) (t : Ty) {h : Hal}

section
variable (H : Host Wire)
@[csem high] theorem shl_7_0 (m : Mem Wire) : shift H .shl .i32 7 0 m = .ok (.int .i32 7, m) := rfl
@[csem high] theorem shl_0_0 (m : Mem Wire) : shift H .shl .i32 0 0 m = .ok (.int .i32 0, m) := rfl
@[csem high] theorem shl_8_0 (m : Mem Wire) : shift H .shl .i32 8 0 m = .ok (.int .i32 8, m) := rfl
@[csem high] theorem shl_3_0 (m : Mem Wire) : shift H .shl .i32 3 0 m = .ok (.int .i32 3, m) := rfl
@[csem high] theorem shl_6_0 (m : Mem Wire) : shift H .shl .i32 6 0 m = .ok (.int .i32 6, m) := rfl
@[csem high] theorem shl_5_0 (m : Mem Wire) : shift H .shl .i32 5 0 m = .ok (.int .i32 5, m) := rfl
@[csem high] theorem shl_2_0 (m : Mem Wire) : shift H .shl .i32 2 0 m = .ok (.int .i32 2, m) := rfl
@[csem high] theorem shl_0_6 (m : Mem Wire) : shift H .shl .i32 0 6 m = .ok (.int .i32 0, m) := rfl
@[csem high] theorem shl_0_4 (m : Mem Wire) : shift H .shl .i32 0 4 m = .ok (.int .i32 0, m) := rfl
@[csem high] theorem shl_0_7 (m : Mem Wire) : shift H .shl .i32 0 7 m = .ok (.int .i32 0, m) := rfl
@[csem high] theorem shl_7_4 (m : Mem Wire) : shift H .shl .i32 7 4 m = .ok (.int .i32 112, m) := rfl
@[csem high] theorem shl_1_0 (m : Mem Wire) : shift H .shl .i32 1 0 m = .ok (.int .i32 1, m) := rfl
@[csem high] theorem shl_1_1 (m : Mem Wire) : shift H .shl .i32 1 1 m = .ok (.int .i32 2, m) := rfl
@[csem high] theorem shl_1_2 (m : Mem Wire) : shift H .shl .i32 1 2 m = .ok (.int .i32 4, m) := rfl
@[csem high] theorem shl_1_3 (m : Mem Wire) : shift H .shl .i32 1 3 m = .ok (.int .i32 8, m) := rfl
@[csem high] theorem shl_1_4 (m : Mem Wire) : shift H .shl .i32 1 4 m = .ok (.int .i32 16, m) := rfl
@[csem high] theorem shl_1_5 (m : Mem Wire) : shift H .shl .i32 1 5 m = .ok (.int .i32 32, m) := rfl
@[csem high] theorem shl_1_6 (m : Mem Wire) : shift H .shl .i32 1 6 m = .ok (.int .i32 64, m) := rfl
@[csem high] theorem shl_1_7 (m : Mem Wire) : shift H .shl .i32 1 7 m = .ok (.int .i32 128, m) := rfl
end

theorem setWidth8_not (v : BitVec 32) : (~~~ v).setWidth 8 = ~~~ (v.setWidth 8) := BitVec.setWidth_not (by omega)

/-- Run the driver and compute the bytes it writes. -/
macro "drun" "[" ls:Lean.Parser.Tactic.simpLemma,* "]" : tactic => `(tactic|
  crun [u8_bits, x8_bits, w8_bits, bits_ofBits_i32, BitVec.setWidth_or, BitVec.setWidth_and, setWidth8_not, ofInt8_mod, $ls,*])

/-- Compute what the model does. -/
macro "fol" "[" ls:Lean.Parser.Tactic.simpLemma,* "]" : tactic => `(tactic|
  simp only [follow_bind, fthen_ok, follow_pure, follow_do, follow_act, follow_opt, follow_writeReg, follow_readReg, follow_writeRegs, $ls,*])

/-- After a change of the operating mode. -/
def modeTo (w : Wire) (m : Byte) : Wire := wrTo ans (rdTo ans w 1) 1 [(rdVal ans w 1 &&& ~~~(0x07 : Byte)) ||| m]

theorem follow_setOpMode (m : Byte) : follow ans (setOpMode m) w = .ok ((), modeTo ans w m) := by
  fol [setOpMode]
  rfl

theorem run_set_op_mode (hg : HalAt g h) (m : Int) : call (chipHost ans) dprog L (k + 3) "set_op_mode" [.int t m] ⟨g, fs, w⟩ =
    .ok (.null, ⟨g, fs, modeTo ans w (BitVec.ofInt 8 m)⟩) := by
  rw [dcall_fun _ _ _ (f := Sx127xSrc.set_op_mode) (by rfl)]
  simp only [Sx127xSrc.set_op_mode]
  drun [run_read_reg _ _ _ _ hg, run_write_reg _ _ _ _ hg]
  rfl

theorem run_conf1 (hg : HalAt g h) (bw cr : Byte) (b : Bool) : call (chipHost ans) dprog L (k + 3) "lora_set_modem_conf1" [byteVal bw, byteVal cr, boolVal b] ⟨g, fs, w⟩ =
    .ok (.null, ⟨g, fs, wrTo ans w 0x1d [(bw ||| cr) ||| (if b then 0x01 else 0x00)]⟩) := by
  rw [dcall_fun _ _ _ (f := Sx127xSrc.lora_set_modem_conf1) (by rfl)]
  simp only [Sx127xSrc.lora_set_modem_conf1]
  have := bw.isLt
  have := cr.isLt
  cases b <;> drun [run_write_reg _ _ _ _ hg] <;> simp

theorem run_conf2 (hg : HalAt g h) (sf : Byte) (b : Bool) : call (chipHost ans) dprog L (k + 3) "lora_set_modem_conf2" [byteVal sf, boolVal b, .int t 0] ⟨g, fs, w⟩ =
    .ok (.null, ⟨g, fs, wrTo ans w 0x1e [(sf ||| (if b then 0x04 else 0x00)) ||| (if false then 0x08 else 0x00)]⟩) := by
  rw [dcall_fun _ _ _ (f := Sx127xSrc.lora_set_modem_conf2) (by rfl)]
  simp only [Sx127xSrc.lora_set_modem_conf2]
  have := sf.isLt
  cases b <;> drun [run_write_reg _ _ _ _ hg] <;> simp

theorem run_conf3 (hg : HalAt g h) (b : Bool) : call (chipHost ans) dprog L (k + 3) "lora_set_modem_conf3" [boolVal b, .int t 1] ⟨g, fs, w⟩ =
    .ok (.null, ⟨g, fs, wrTo ans w 0x26 [(if b then 0x08 else 0x00) ||| (if true then 0x04 else 0x00)]⟩) := by
  rw [dcall_fun _ _ _ (f := Sx127xSrc.lora_set_modem_conf3) (by rfl)]
  simp only [Sx127xSrc.lora_set_modem_conf3]
  cases b <;> drun [run_write_reg _ _ _ _ hg] <;> rfl

/-- After the choice of the IQ polarity. -/
def iqTo (w : Wire) (b : Bool) : Wire := if b then wrTo ans (wrTo ans w 0x33 [0x66]) 0x3b [0x19] else wrTo ans (wrTo ans w 0x33 [0x27]) 0x3b [0x1d]

theorem follow_iq (b : Bool) : follow ans (Sx127x.setInvertedIq b) w = .ok ((), iqTo ans w b) := by
  cases b <;> rfl

theorem run_iq (hg : HalAt g h) (b : Bool) : call (chipHost ans) dprog L (k + 3) "set_inverted_iq" [boolVal b] ⟨g, fs, w⟩ = .ok (.null, ⟨g, fs, iqTo ans w b⟩) := by
  rw [dcall_fun _ _ _ (f := Sx127xSrc.set_inverted_iq) (by rfl)]
  simp only [Sx127xSrc.set_inverted_iq]
  cases b <;> drun [run_write_reg _ _ _ _ hg] <;> rfl

/-- After the choice of the sync word. -/
def syncTo (w : Wire) (b : Bool) : Wire := if b then wrTo ans w 0x39 [0x34] else wrTo ans w 0x39 [0x14]

theorem follow_sync (b : Bool) : follow ans (Sx127x.setPublicNetwork b) w = .ok ((), syncTo ans w b) := by
  cases b <;> rfl

theorem run_sync (hg : HalAt g h) (b : Bool) : call (chipHost ans) dprog L (k + 3) "sx127x_set_public_network" [boolVal b] ⟨g, fs, w⟩ = .ok (.null, ⟨g, fs, syncTo ans w b⟩) := by
  rw [dcall_fun _ _ _ (f := Sx127xSrc.sx127x_set_public_network) (by rfl)]
  simp only [Sx127xSrc.sx127x_set_public_network]
  cases b <;> drun [run_write_reg _ _ _ _ hg] <;> rfl

theorem run_sleep (hg : HalAt g h) : ∃ w', follow ans (Sx127x.sleep h) w = .ok ((), w') ∧
    call (chipHost ans) dprog L (k + 4) "sx127x_sleep" [] ⟨g, fs, w⟩ = .ok (.null, ⟨g, fs, w'⟩) := by
  rw [dcall_fun _ _ _ (f := Sx127xSrc.sx127x_sleep) (by rfl)]
  simp only [Sx127xSrc.sx127x_sleep]
  refine ⟨_, by fol [Sx127x.sleep, follow_setOpMode]; rfl, ?_⟩
  have hio := hg.ioDeinit
  cases hd : h.ioDeinit <;> rw [hd] at hio <;> simp only [optFn, Bool.false_eq_true, if_false, if_true] at hio <;>
    drun [run_set_op_mode _ _ _ _ hg, hg.hal, hio] <;> rfl

theorem run_tx (hg : HalAt g h) (buf : Bytes) (hb : g.get "buf" = some (buf.map byteVal)) (hl : buf.length ≤ 255) (hL : 256 ≤ L) :
    ∃ w', follow ans (Sx127x.tx h buf) w = .ok ((), w') ∧
    call (chipHost ans) dprog L (k + 4) "sx127x_tx" [globPtr "buf", .int .u8 buf.length] ⟨g, fs, w⟩ = .ok (.null, ⟨g, fs, w'⟩) := by
  rw [dcall_fun _ _ _ (f := Sx127xSrc.sx127x_tx) (by rfl)]
  simp only [Sx127xSrc.sx127x_tx]
  refine ⟨_, by fol [Sx127x.tx, follow_setOpMode]; rfl, ?_⟩
  have hio := hg.antSw
  have hwa := fun fs w => run_write_array (L := L) (k := k + 1) fs ans w .i32 hg buf hb hl hL 0 .u8
  have hn : BitVec.ofInt 8 (buf.length : Int) = BitVec.ofNat 8 buf.length := BitVec.ofInt_natCast _ _
  simp only [globPtr] at hwa
  cases hd : h.antSw <;> rw [hd] at hio <;> simp only [optFn, Bool.false_eq_true, if_false, if_true] at hio <;>
    drun [run_set_op_mode _ _ _ _ hg, run_write_reg _ _ _ _ hg, hwa, hg.hal, hio, hn] <;> rfl

theorem run_rx (hg : HalAt g h) (len : Byte) (symb : U16) (tmo : U32) : ∃ w', follow ans (Sx127x.rx h len symb tmo) w = .ok ((), w') ∧
    call (chipHost ans) dprog L (k + 4) "sx127x_rx" [byteVal len, .int .u16 symb.toNat, u32Val tmo] ⟨g, fs, w⟩ = .ok (.null, ⟨g, fs, w'⟩) := by
  rw [dcall_fun _ _ _ (f := Sx127xSrc.sx127x_rx) (by rfl)]
  simp only [Sx127xSrc.sx127x_rx]
  have hio := hg.antSw
  have := len.isLt
  have := symb.isLt
  have := tmo.isLt
  have hs : BitVec.ofInt 8 (symb.toNat : Int) = symb.setWidth 8 := by
    apply BitVec.eq_of_toNat_eq
    rw [BitVec.toNat_ofInt, BitVec.toNat_setWidth]
    omega
  have hs8 : BitVec.ofInt 8 ((symb.toNat : Int) / 2 ^ 8) = (symb >>> 8).setWidth 8 := by
    apply BitVec.eq_of_toNat_eq
    rw [BitVec.toNat_ofInt, BitVec.toNat_setWidth, BitVec.toNat_ushiftRight, Nat.shiftRight_eq_div_pow]
    omega
  have ha : symb.setWidth 8 &&& 255 = symb.setWidth 8 := by
    show _ &&& BitVec.allOnes 8 = _
    exact BitVec.and_allOnes
  by_cases h0 : tmo = 0
  · refine ⟨_, by fol [Sx127x.rx, follow_setOpMode, if_pos h0]; rfl, ?_⟩
    have ht : (tmo.toNat : Int) = 0 := by rw [h0]; rfl
    cases hd : h.antSw <;> rw [hd] at hio <;> simp only [optFn, Bool.false_eq_true, if_false, if_true] at hio <;>
      drun [run_set_op_mode _ _ _ _ hg, run_read_reg _ _ _ _ hg, run_write_reg _ _ _ _ hg, hg.hal, hio, hs, hs8, ha] <;> rfl
  · refine ⟨_, by fol [Sx127x.rx, follow_setOpMode, if_neg h0]; rfl, ?_⟩
    have ht : ¬ (tmo.toNat : Int) = 0 := fun h => h0 (BitVec.eq_of_toNat_eq (by simpa using h))
    cases hd : h.antSw <;> rw [hd] at hio <;> simp only [optFn, Bool.false_eq_true, if_false, if_true] at hio <;>
      drun [run_set_op_mode _ _ _ _ hg, run_read_reg _ _ _ _ hg, run_write_reg _ _ _ _ hg, hg.hal, hio, hs, hs8, ha] <;> rfl

/-- The tables of the driver. -/
structure TabAt (g : Objs) : Prop where
  sf : g.get "sf_table" = some [.int .u8 96, .int .u8 112, .int .u8 128, .int .u8 144, .int .u8 160, .int .u8 176, .int .u8 192]
  bw : g.get "bw_table" = some [.int .u8 112, .int .u8 128, .int .u8 144]
  cr : g.get "cr_table" = some [.int .u8 2, .int .u8 4, .int .u8 6, .int .u8 8]

/-- The parameters of `setup`. -/
structure ParAt (g : Objs) (p : PktParams) : Prop where
  sf : g.get "params.sf" = some [enumVal (Sf.num p.sf)]
  bw : g.get "params.bw" = some [enumVal (Bw.num p.bw)]
  cr : g.get "params.cr" = some [enumVal (Cr.num p.cr)]
  crc : g.get "params.crc_on" = some [boolVal p.crcOn]
  iq : g.get "params.inverted_iq" = some [boolVal p.invertedIq]
  imp : g.get "params.implicit_header" = some [boolVal p.implicitHeader]

section
variable (m : Mem Wire)
theorem cell_sf (x : Sf) : cell m (Sf.num x : Nat) (some [.int .u8 96, .int .u8 112, .int .u8 128, .int .u8 144, .int .u8 160, .int .u8 176, .int .u8 192]) =
    .ok (byteVal (Sx127x.sfTable x), m) := by cases x <;> rfl
theorem cell_bw (x : Bw) : cell m (Bw.num x : Nat) (some [.int .u8 112, .int .u8 128, .int .u8 144]) = .ok (byteVal (Sx127x.bwTable x), m) := by cases x <;> rfl
theorem cell_cr (x : Cr) : cell m (Cr.num x : Nat) (some [.int .u8 2, .int .u8 4, .int .u8 6, .int .u8 8]) = .ok (byteVal (Sx127x.crTable x), m) := by cases x <;> rfl
theorem low_dr (x : Sf) : leb 5 (Sf.num x : Nat) = Sx127x.lowDr x := by cases x <;> rfl
theorem sf_lt (x : Sf) : Sf.num x < 7 := by cases x <;> decide
end

theorem run_setup (hg : HalAt g h) (ht : TabAt g) (p : PktParams) (hp : ParAt g p) : ∃ w', follow ans (Sx127x.setup h p) w = .ok ((), w') ∧
    call (chipHost ans) dprog L (k + 4) "sx127x_setup" [globPtr "params"] ⟨g, fs, w⟩ = .ok (.null, ⟨g, fs, w'⟩) := by
  rw [dcall_fun _ _ _ (f := Sx127xSrc.sx127x_setup) (by rfl)]
  simp only [Sx127xSrc.sx127x_setup]
  refine ⟨_, by fol [Sx127x.setup, follow_setOpMode, follow_iq, Sx127x.setModemConf1, Sx127x.setModemConf2, Sx127x.setModemConf3]; rfl, ?_⟩
  have hio := hg.ioInit
  have := sf_lt p.sf
  have h1 := fun fs w => run_conf1 (L := L) (k := k) fs ans w hg (Sx127x.bwTable p.bw) (Sx127x.crTable p.cr) p.implicitHeader
  have h2 := fun fs w => run_conf2 (L := L) (k := k) fs ans w .i32 hg (Sx127x.sfTable p.sf) p.crcOn
  have h3 := fun fs w => run_conf3 (L := L) (k := k) fs ans w .i32 hg (Sx127x.lowDr p.sf)
  have c1 := fun m => cell_sf m p.sf
  have c2 := fun m => cell_bw m p.bw
  have c3 := fun m => cell_cr m p.cr
  simp only [byteVal] at h1 h2 c1 c2 c3
  cases hd : h.ioInit <;> rw [hd] at hio <;> simp only [optFn, Bool.false_eq_true, if_false, if_true] at hio <;>
    drun [run_set_op_mode _ _ _ _ hg, run_iq _ _ _ hg, h1, h2, h3, hg.hal, hio, hp.sf, hp.bw, hp.cr, hp.crc, hp.iq, hp.imp, ht.sf, ht.bw, ht.cr, c1, c2, c3, low_dr] <;> rfl

/-- The event handler of the stack. -/
theorem run_evt (g : Objs) (v : List Val) (hv : g.get "user_evt_handler" = some v) (b b' : Bool) (hb : v = [optFn b' "evt_handler"]) :
    call (chipHost ans) dprog L (k + 1) "sx127x_set_evt_handler" [optFn b "evt_handler"] ⟨g, fs, w⟩ =
    .ok (.null, ⟨g.put "user_evt_handler" [optFn b "evt_handler"], fs, w⟩) := by
  rw [dcall_fun _ _ _ (f := Sx127xSrc.sx127x_set_evt_handler) (by rfl)]
  simp only [Sx127xSrc.sx127x_set_evt_handler]
  subst hb
  cases b <;> cases b' <;> simp only [optFn, Bool.false_eq_true, if_false, if_true] at hv ⊢ <;> crun [hv] <;> rfl

theorem flag_text (f : Byte) (n : Nat) : ofBits .i32 (bits (f.toNat : Int) &&& bits n) = 0 ↔ f &&& BitVec.ofNat 8 n = 0 := by
  have h1 : bits (f.toNat : Int) &&& bits n = (f &&& BitVec.ofNat 8 n).setWidth 32 := by
    apply BitVec.eq_of_getLsbD_eq
    intro i hi
    rw [bits_byte, bits_lit]
    simp only [BitVec.getLsbD_and, BitVec.getLsbD_setWidth, BitVec.getLsbD_ofNat]
    by_cases h8 : i < 8
    · simp [hi, h8]
    · rw [BitVec.getLsbD_of_ge f _ (by omega)]
      simp
  have h2 := (f &&& BitVec.ofNat 8 n).isLt
  rw [h1, ofBits_small _ (by rw [BitVec.toNat_setWidth]; omega), BitVec.toNat_setWidth]
  constructor
  · intro h
    apply BitVec.eq_of_toNat_eq
    have h0 : (0 : Byte).toNat = 0 := rfl
    rw [h0]
    omega
  · intro h
    rw [h]
    rfl

theorem run_irq (hg : HalAt g h) (b : Bool) (hv : g.get "user_evt_handler" = some [optFn b "evt_handler"]) :
    ∃ r w', follow ans (Sx127x.irqHandler b) w = .ok (r, w') ∧
    call (chipHost ans) dprog L (k + 3) "sx127x_irq_handler" [] ⟨g, fs, w⟩ = .ok (byteVal r, ⟨g, fs, w'⟩) := by
  rw [dcall_fun _ _ _ (f := Sx127xSrc.sx127x_irq_handler) (by rfl)]
  simp only [Sx127xSrc.sx127x_irq_handler]
  refine ⟨_, _, by fol [Sx127x.irqHandler]; rfl, ?_⟩
  have hr : BitVec.ofInt 8 18 = (0x12 : Byte) := rfl
  generalize hf : rdVal ans w 0x12 = f
  have e1 : (ofBits .i32 (bits (f.toNat : Int) &&& bits (2 ^ 3)) = 0) = (f &&& 8 = 0) := propext (flag_text f 8)
  have e2 : (ofBits .i32 (bits (f.toNat : Int) &&& bits (2 ^ 6)) = 0) = (f &&& 64 = 0) := propext (flag_text f 64)
  have e3 : (ofBits .i32 (bits (f.toNat : Int) &&& bits (2 ^ 7)) = 0) = (f &&& 128 = 0) := propext (flag_text f 128)
  have e4 : (ofBits .i32 (bits (f.toNat : Int) &&& bits (2 ^ 5)) = 0) = (f &&& 32 = 0) := propext (flag_text f 32)
  cases b <;> simp only [optFn, Bool.false_eq_true, if_false, if_true] at hv <;>
  by_cases d1 : f &&& 8 = 0 <;> by_cases d2 : f &&& 64 = 0 <;> by_cases d3 : f &&& 128 = 0 <;> by_cases d4 : f &&& 32 = 0 <;>
  drun [run_read_reg _ _ _ _ hg, run_write_reg _ _ _ _ hg, hv, hr, hf, e1, e2, e3, e4, d1, d2, d3, d4, decide_true, decide_false, ne_eq, not_true_eq_false, not_false_eq_true, if_true, if_false] <;> rfl

/-! ### Power -/

theorem run_power_no (p : BitVec 8) (hp : p.toInt < -4 ∨ p.toInt > 17) :
    call (chipHost ans) dprog L (k + 1) "sx127x_set_power" [i8Val p] ⟨g, fs, w⟩ = .ok (boolVal false, ⟨g, fs, w⟩) := by
  rw [dcall_fun _ _ _ (f := Sx127xSrc.sx127x_set_power) (by rfl)]
  simp only [Sx127xSrc.sx127x_set_power]
  have := BitVec.toInt_lt (x := p)
  have := BitVec.le_toInt (x := p)
  by_cases h : p.toInt < -4
  · simp only [i8Val]; drun []
  · simp only [i8Val]; drun []

theorem power_cases (n : Int) (h1 : ¬ n < -4) (h2 : ¬ n > 17) : n = -4 ∨ n = -3 ∨ n = -2 ∨ n = -1 ∨ n = 0 ∨ n = 1 ∨ n = 2 ∨ n = 3 ∨ n = 4 ∨ n = 5 ∨ n = 6 ∨
    n = 7 ∨ n = 8 ∨ n = 9 ∨ n = 10 ∨ n = 11 ∨ n = 12 ∨ n = 13 ∨ n = 14 ∨ n = 15 ∨ n = 16 ∨ n = 17 := by omega

theorem run_power (hg : HalAt g h) (p : BitVec 8) (hp : ¬ (p.toInt < -4 ∨ p.toInt > 17)) (o o' : BitVec 16) (ho : g.get "rssi_offset" = some [.int .i16 o.toInt]) :
    ∃ off w', follow ans (Sx127x.setPower p o') w = .ok ((true, off), w') ∧
    call (chipHost ans) dprog L (k + 3) "sx127x_set_power" [i8Val p] ⟨g, fs, w⟩ = .ok (boolVal true, ⟨g.put "rssi_offset" [.int .i16 off.toInt], fs, w'⟩) := by
  rw [dcall_fun _ _ _ (f := Sx127xSrc.sx127x_set_power) (by rfl)]
  simp only [Sx127xSrc.sx127x_set_power]
  have hn := power_cases p.toInt (by omega) (by omega)
  have hq : p = BitVec.ofInt 8 p.toInt := (BitVec.ofInt_toInt).symm
  generalize p.toInt = n at hn hq
  have hw := fun v fs w t t' a d => run_write_reg (L := L) (k := k) fs ans w t (hg.put (x := "rssi_offset") (by simp) v) t' a d
  rcases hn with rfl | rfl | rfl | rfl | rfl | rfl | rfl | rfl | rfl | rfl | rfl | rfl | rfl | rfl | rfl | rfl | rfl | rfl | rfl | rfl | rfl | rfl <;> subst hq <;>
  refine ⟨_, _, rfl, ?_⟩ <;> simp only [i8Val, BitVec.reduceOfInt, BitVec.reduceToInt] <;>
  drun [hw, ho] <;> rfl
end
end Uwan.C.Drv
