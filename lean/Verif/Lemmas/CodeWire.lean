import Verif.Code.RunDriver
import Verif.Lemmas.CodeWords
import Verif.Lemmas.CodeTail
import Verif.Lemmas.CodeDispatch

/-! # The register accesses of the SX127x driver, as the program text makes them -/

namespace Uwan.C.Drv
open Sx127x (writeReg writeRegs readReg)

/-! ## Programs of the model -/

/-- Go on after a program. -/
def fthen {α β : Type} (r : Except UB (α × Wire)) (f : α → Wire → Except UB (β × Wire)) : Except UB (β × Wire) :=
  match r with
  | .ok (a, w) => f a w
  | .error u => .error u

section
variable (ans : ChipAns) {α β : Type}

theorem fthen_ok (a : α) (w : Wire) (f : α → Wire → Except UB (β × Wire)) : fthen (.ok (a, w)) f = f a w := rfl
theorem follow_bind (p : Prog α) (f : α → Prog β) : ∀ w, follow ans (p >>= f) w = fthen (follow ans p w) fun a => follow ans (f a) := by
  show ∀ w, follow ans (p.bind f) w = _
  induction p with
  | ret a => intro w; rfl
  | call c k ih => intro w; exact ih _ _
  | poll k ih => intro w; exact ih _
  | fail u => intro w; rfl
theorem follow_pure (a : α) (w : Wire) : follow ans (pure a) w = .ok (a, w) := rfl
theorem follow_do (c : Call) (w : Wire) : follow ans (Prog.do_ c) w = .ok ((), w.did ans c) := rfl
theorem follow_act (c : Call) (w : Wire) : follow ans (Prog.act c) w = .ok (ans w.tr c, w.did ans c) := rfl
theorem follow_opt (b : Bool) (c : Call) (w : Wire) : follow ans (Prog.opt b c) w = .ok ((), if b then w.did ans c else w) := by
  cases b <;> rfl

/-- What a program followed is an execution of it. -/
theorem follow_exec (p : Prog α) : ∀ {w a w'}, follow ans p w = .ok (a, w') → w'.over = w.over ∧ ∃ t, w'.tr = w.tr ++ t ∧ Exec p t a := by
  induction p with
  | ret b =>
    intro w a w' h
    simp only [follow, Except.ok.injEq, Prod.mk.injEq] at h
    obtain ⟨rfl, rfl⟩ := h
    exact ⟨rfl, [], by simp, .ret _⟩
  | call c k ih =>
    intro w a w' h
    obtain ⟨h0, t, h1, h2⟩ := ih _ h
    exact ⟨h0, (c, ans w.tr c) :: t, by rw [h1]; simp [Wire.did], .call h2⟩
  | poll k ih =>
    intro w a w' h
    obtain ⟨h0, t, h1, h2⟩ := ih h
    exact ⟨h0, (.isBusy, 0) :: t, by rw [h1]; simp, .ready h2⟩
  | fail u => intro w a w' h; exact nomatch h

/-- After a list of transfers. -/
def xfersTo (w : Wire) : Bytes → Wire
  | [] => w
  | b :: l => xfersTo (w.did ans (.xfer b)) l

theorem follow_xfers (l : Bytes) : ∀ w, ∃ r, follow ans (Prog.xfers l) w = .ok (r, xfersTo ans w l) := by
  induction l with
  | nil => intro w; exact ⟨[], rfl⟩
  | cons b l ih =>
    intro w
    obtain ⟨r, hr⟩ := ih (w.did ans (.xfer b))
    refine ⟨ans w.tr (.xfer b) :: r, ?_⟩
    show follow ans (Prog.act (.xfer b) >>= fun r => Prog.xfers l >>= fun rs => pure (r :: rs)) w = _
    rw [follow_bind, follow_act, fthen_ok, follow_bind, hr, fthen_ok]
    rfl

/-- After a register was written. -/
def wrTo (w : Wire) (a : Byte) (l : Bytes) : Wire := (xfersTo ans ((w.did ans (.select true)).did ans (.xfer (a ||| 0x80))) l).did ans (.select false)
/-- After a register was read. -/
def rdTo (w : Wire) (a : Byte) : Wire := (((w.did ans (.select true)).did ans (.xfer a)).did ans (.xfer 0)).did ans (.select false)
/-- The value read. -/
def rdVal (w : Wire) (a : Byte) : Byte := ans ((w.did ans (.select true)).did ans (.xfer a)).tr (.xfer 0)

theorem follow_writeRegs (a : Byte) (l : Bytes) (w : Wire) : follow ans (writeRegs a l) w = .ok ((), wrTo ans w a l) := by
  obtain ⟨r, hr⟩ := follow_xfers ans ((a ||| 0x80) :: l) (w.did ans (.select true))
  show follow ans ((Prog.do_ (.select true) >>= fun _ => Prog.xfers ((a ||| 0x80) :: l) >>= fun m => Prog.do_ (.select false) >>= fun _ => pure m) >>=
    fun _ => pure ()) w = _
  rw [follow_bind, follow_bind, follow_do, fthen_ok, follow_bind, hr, fthen_ok]
  rfl
theorem follow_writeReg (a d : Byte) (w : Wire) : follow ans (writeReg a d) w = .ok ((), wrTo ans w a [d]) := rfl
theorem follow_readReg (a : Byte) (w : Wire) : follow ans (readReg a) w = .ok (rdVal ans w a, rdTo ans w a) := rfl
end

/-! ## Running the driver -/

/-- The driver knows the HAL table `h`. -/
structure HalAt (g : Objs) (h : Hal) : Prop where
  hal : g.get "hal" = some [globPtr "radio_hal"]
  xfer : g.get "radio_hal.spi_xfer" = some [.fn "hal.spi_xfer"]
  reset : g.get "radio_hal.reset" = some [.fn "hal.reset"]
  select : g.get "radio_hal.select" = some [.fn "hal.select"]
  delay : g.get "radio_hal.delay_us" = some [.fn "hal.delay_us"]
  ioInit : g.get "radio_hal.io_init" = some [optFn h.ioInit "hal.io_init"]
  ioDeinit : g.get "radio_hal.io_deinit" = some [optFn h.ioDeinit "hal.io_deinit"]
  antSw : g.get "radio_hal.ant_sw_ctrl" = some [optFn h.antSw "hal.ant_sw_ctrl"]

/-- A change of another variable. -/
theorem HalAt.put {g : Objs} {h : Hal} (hg : HalAt g h) {x : String} (hx : x = "rssi_offset" ∨ x = "buf" ∨ x = "pkt.size" ∨ x = "pkt.rssi" ∨ x = "pkt.snr")
    (v : List Val) : HalAt (g.put x v) h := by
  constructor <;> rw [Objs.get_put_other _ _ _ _ (by rcases hx with rfl | rfl | rfl | rfl | rfl <;> decide)]
  · exact hg.hal
  · exact hg.xfer
  · exact hg.reset
  · exact hg.select
  · exact hg.delay
  · exact hg.ioInit
  · exact hg.ioDeinit
  · exact hg.antSw

/-- The program. -/
abbrev dprog : Program := Sx127xSrc.sx127xFuns

section
variable {ω : Type} (H : Host ω) {L k : Nat} (g : Objs) (fs : List Objs)

theorem dcall_fun {x : String} {f : Fun} (h : dprog.find x = some f) (as : List Val) (w : ω) :
    call H dprog L (k + 1) x as ⟨g, fs, w⟩ = enter ⟨H, call H dprog L k, L⟩ f.body f.result (bindParams f.params as) ⟨g, fs, w⟩ := by
  rw [call, h]
  exact run_enter _ _ _ _

theorem dcall_lib {x : String} (h : dprog.find x = none) (as : List Val) : call H dprog L (k + 1) x as = library H x as := by
  rw [call, h]

variable (ans : ChipAns) (w : Wire) (t : Ty) (n : Int)

theorem nz (n : Int) : decide (n ≠ 0) = !eqb n 0 := by simp [eqb]

@[csem] theorem call_xfer : call (chipHost ans) dprog L (k + 1) "hal.spi_xfer" [.int t n] ⟨g, fs, w⟩ =
    .ok (.int .u8 (ans w.tr (.xfer (BitVec.ofInt 8 n))).toNat, ⟨g, fs, w.did ans (.xfer (BitVec.ofInt 8 n))⟩) := by
  rw [dcall_lib _ (by decide +kernel)]; rfl
@[csem] theorem call_select : call (chipHost ans) dprog L (k + 1) "hal.select" [.int t n] ⟨g, fs, w⟩ = .ok (.null, ⟨g, fs, w.did ans (.select (!eqb n 0))⟩) := by
  rw [dcall_lib _ (by decide +kernel), ← nz]; rfl
@[csem] theorem call_reset : call (chipHost ans) dprog L (k + 1) "hal.reset" [.int t n] ⟨g, fs, w⟩ = .ok (.null, ⟨g, fs, w.did ans (.reset (!eqb n 0))⟩) := by
  rw [dcall_lib _ (by decide +kernel), ← nz]; rfl
@[csem] theorem call_delay : call (chipHost ans) dprog L (k + 1) "hal.delay_us" [.int t n] ⟨g, fs, w⟩ =
    .ok (.null, ⟨g, fs, w.did ans (.delay (n % 4294967296).toNat)⟩) := by
  rw [dcall_lib _ (by decide +kernel)]; rfl
@[csem] theorem call_ioInit : call (chipHost ans) dprog L (k + 1) "hal.io_init" [] ⟨g, fs, w⟩ = .ok (.null, ⟨g, fs, w.did ans .ioInit⟩) := by
  rw [dcall_lib _ (by decide +kernel)]; rfl
@[csem] theorem call_ioDeinit : call (chipHost ans) dprog L (k + 1) "hal.io_deinit" [] ⟨g, fs, w⟩ = .ok (.null, ⟨g, fs, w.did ans .ioDeinit⟩) := by
  rw [dcall_lib _ (by decide +kernel)]; rfl
@[csem] theorem call_antSw : call (chipHost ans) dprog L (k + 1) "hal.ant_sw_ctrl" [.int t n] ⟨g, fs, w⟩ = .ok (.null, ⟨g, fs, w.did ans (.antSw (!eqb n 0))⟩) := by
  rw [dcall_lib _ (by decide +kernel), ← nz]; rfl
@[csem] theorem call_handler : call (chipHost ans) dprog L (k + 1) "evt_handler" [.int t n] ⟨g, fs, w⟩ =
    .ok (.null, ⟨g, fs, w.did ans (.handler (BitVec.ofInt 8 n))⟩) := by
  rw [dcall_lib _ (by decide +kernel)]; rfl

/-! ### Bytes -/

theorem u8_bits (v : BitVec 32) : Ty.u8.conv (ofBits .i32 v) = ((v.setWidth 8).toNat : Int) := by
  unfold ofBits Ty.conv
  rw [if_neg (by decide), BitVec.toNat_setWidth]
  have := v.isLt
  simp only [BitVec.toInt]
  split <;> omega

theorem x8_bits (v : BitVec 32) : BitVec.ofInt 8 (ofBits .i32 v) = v.setWidth 8 := by
  apply BitVec.eq_of_toNat_eq
  have h := u8_bits v
  rw [BitVec.toNat_ofInt]
  simp only [Ty.conv] at h
  have h8 : ((2 ^ 8 : Nat) : Int) = 256 := rfl
  rw [h8, h]
  simp
  omega

theorem w8_bits (n : Int) : (bits n).setWidth 8 = BitVec.ofInt 8 n := by
  unfold bits
  apply BitVec.eq_of_toNat_eq
  rw [BitVec.toNat_setWidth, BitVec.toNat_ofInt, BitVec.toNat_ofInt]
  omega

theorem ofInt8_mod (n : Int) : BitVec.ofInt 8 (n % 256) = BitVec.ofInt 8 n := by
  apply BitVec.eq_of_toNat_eq
  rw [BitVec.toNat_ofInt, BitVec.toNat_ofInt]
  omega

theorem bits_lit (n : Nat) : bits (n : Int) = BitVec.ofNat 32 n := by
  unfold bits
  apply BitVec.eq_of_toNat_eq
  simp

variable {g} {h : Hal}

theorem run_write_reg (hg : HalAt g h) (t' : Ty) (a d : Int) : call (chipHost ans) dprog L (k + 2) "write_reg" [.int t a, .int t' d] ⟨g, fs, w⟩ =
    .ok (.null, ⟨g, fs, wrTo ans w (BitVec.ofInt 8 a) [BitVec.ofInt 8 d]⟩) := by
  rw [dcall_fun _ _ _ (f := Sx127xSrc.write_reg) (by rfl)]
  simp only [Sx127xSrc.write_reg]
  crun [hg.hal, hg.xfer, hg.select]
  rw [x8_bits, BitVec.setWidth_or, w8_bits, w8_bits, ofInt8_mod, ofInt8_mod]
  rfl

theorem run_read_reg (hg : HalAt g h) (a : Int) : call (chipHost ans) dprog L (k + 2) "read_reg" [.int t a] ⟨g, fs, w⟩ =
    .ok (.int .u8 (rdVal ans w (BitVec.ofInt 8 a)).toNat, ⟨g, fs, rdTo ans w (BitVec.ofInt 8 a)⟩) := by
  rw [dcall_fun _ _ _ (f := Sx127xSrc.read_reg) (by rfl)]
  simp only [Sx127xSrc.read_reg]
  crun [hg.hal, hg.xfer, hg.select]
  rw [ofInt8_mod]
  rfl

/-- The frame of `write_array` and `read_array`. -/
def arrFrame (i : Int) (a n : Int) : Objs :=
  [("i", [.int .i32 i]), ("hal", [globPtr "radio_hal"]), ("addr", [.int .u8 a]), ("buf", [globPtr "buf"]), ("size", [.int .u8 n])]

theorem writeLoop (hg : HalAt g h) (C : Ctx Wire) (hC : C = ⟨chipHost ans, call (chipHost ans) dprog L (k + 1), L⟩) (buf : Bytes)
    (hb : g.get "buf" = some (buf.map byteVal)) (hl : buf.length ≤ 255) (a : Int) : ∀ (l : Bytes) (i R : Nat) (w : Wire), i + l.length = buf.length → l = buf.drop i → l.length < R →
    iter (M.bind (eval C (.bin .lt (.load (.loc "i")) (.load (.loc "size")))) isTrue) (exec C (.expr (.post .add (.loc "i"))))
      (exec C (.expr (.call (.load (.fld (.elem (.load (.loc "hal")) (.lit .i32 0)) ".spi_xfer")) (.cons (.load (.elem (.load (.loc "buf")) (.load (.loc "i")))) (.nil))))) R
      ⟨g, arrFrame i a buf.length :: fs, w⟩ = .ok (.next, ⟨g, arrFrame buf.length a buf.length :: fs, xfersTo ans w l⟩) := by
  subst hC
  intro l
  induction l with
  | nil =>
    intro i R w hi _ hR
    obtain ⟨R, rfl⟩ : ∃ q, R = q + 1 := ⟨R - 1, by simp at hR; omega⟩
    simp only [List.length_nil, Nat.add_zero] at hi
    subst hi
    apply iter_out
    simp only [arrFrame]
    crun []
    rfl
  | cons b l ih =>
    intro i R w hi hd hR
    obtain ⟨R, rfl⟩ : ∃ q, R = q + 1 := ⟨R - 1, by simp at hR; omega⟩
    simp only [List.length_cons] at hi hR
    have hbi : byteAt buf (i : Int) = b := by
      unfold byteAt
      rw [Int.toNat_natCast, List.getD_eq_getElem?_getD]
      have : buf[i]? = (buf.drop i)[0]? := by simp
      rw [this, ← hd]
      rfl
    have hd' : l = buf.drop (i + 1) := by
      rw [← List.drop_drop, ← hd]
      rfl
    rw [iter_next (m' := ⟨g, arrFrame i a buf.length :: fs, w.did ans (.xfer b)⟩) (m'' := ⟨g, arrFrame (i + 1 : Nat) a buf.length :: fs, w.did ans (.xfer b)⟩) (o := .next)]
    · exact ih (i + 1) R _ (by omega) hd' (by omega)
    · simp only [arrFrame]
      crun []
    · simp only [arrFrame]
      crun [hb, hg.xfer, hbi]
    · simp only [arrFrame]
      crun []
      simp only [Int.natCast_add, Int.natCast_one]

theorem run_write_array (hg : HalAt g h) (buf : Bytes) (hb : g.get "buf" = some (buf.map byteVal)) (hl : buf.length ≤ 255) (hL : 256 ≤ L) (a : Int) (t' : Ty) :
    call (chipHost ans) dprog L (k + 2) "write_array" [globPtr "radio_hal", .int t a, globPtr "buf", .int t' buf.length] ⟨g, fs, w⟩ =
    .ok (.null, ⟨g, fs, wrTo ans w (BitVec.ofInt 8 a) buf⟩) := by
  rw [dcall_fun _ _ _ (f := Sx127xSrc.write_array) (by rfl)]
  simp only [Sx127xSrc.write_array]
  have hw := fun w => writeLoop (L := L) (k := k) fs ans hg _ rfl buf hb hl (a % 256) buf 0 L w (by simp) (by simp) (by omega)
  simp only [arrFrame, globPtr, Int.ofNat_zero] at hw
  crun [hg.xfer, hg.select, exec_loop, hw]
  rw [x8_bits, BitVec.setWidth_or, w8_bits, w8_bits, ofInt8_mod]
  rfl

theorem readLoop_text (C : Ctx Wire) (hC : C = ⟨chipHost ans, call (chipHost ans) dprog L (k + 1), L⟩) (size : Nat) (hs : size ≤ 255) (a : Int) (hg : HalAt g h)
    (old : List Val) (ho : g.get "buf" = some old) :
    ∀ (n i R : Nat) (b : Bytes) (w : Wire), i + n = size → size ≤ b.length → n < R → ∃ b' w', follow ans (Sx127x.readLoop n i b) w = .ok (b', w') ∧ b'.length = b.length ∧
    iter (M.bind (eval C (.bin .lt (.load (.loc "i")) (.load (.loc "size")))) isTrue) (exec C (.expr (.post .add (.loc "i"))))
      (exec C (.expr (.asg (.elem (.load (.loc "buf")) (.load (.loc "i"))) (.call (.load (.fld (.elem (.load (.loc "hal")) (.lit .i32 0)) ".spi_xfer")) (.cons (.lit .i32 0) (.nil)))))) R
      ⟨g.put "buf" (b.map byteVal), arrFrame i a size :: fs, w⟩ = .ok (.next, ⟨g.put "buf" (b'.map byteVal), arrFrame size a size :: fs, w'⟩) := by
  subst hC
  intro n
  induction n with
  | zero =>
    intro i R b w hi _ hR
    obtain ⟨R, rfl⟩ : ∃ q, R = q + 1 := ⟨R - 1, by omega⟩
    simp only [Nat.add_zero] at hi
    subst hi
    refine ⟨b, w, rfl, rfl, ?_⟩
    apply iter_out
    simp only [arrFrame]
    crun []
  | succ n ih =>
    intro i R b w hi hb hR
    obtain ⟨R, rfl⟩ : ∃ q, R = q + 1 := ⟨R - 1, by omega⟩
    obtain ⟨b', w', h1, h2, h3⟩ := ih (i + 1) R (b.set i (ans w.tr (.xfer 0))) (w.did ans (.xfer 0)) (by omega) (by simpa using hb) (by omega)
    refine ⟨b', w', ?_, by simpa using h2, ?_⟩
    · rw [Sx127x.readLoop, follow_bind, follow_act, fthen_ok, follow_bind]
      simp only [Sx127x.store]
      rw [if_pos (by omega), follow_pure, fthen_ok]
      exact h1
    · have hx := (hg.put (x := "buf") (by simp) (b.map byteVal)).xfer
      have hgb := Objs.get_put (b.map byteVal) ho
      have hv : (b.map byteVal)[(i : Int).toNat]? = some (byteVal b[i]) := by
        rw [Int.toNat_natCast, List.getElem?_map, List.getElem?_eq_getElem (by omega)]
        rfl
      have hset := fun (m : Mem Wire) v => setCell_of (m := m) (fr := none) (x := "buf") (k := (i : Int)) (v := v) (by omega) hv
      rw [iter_next (m' := ⟨g.put "buf" ((b.set i (ans w.tr (.xfer 0))).map byteVal), arrFrame i a size :: fs, w.did ans (.xfer 0)⟩)
        (m'' := ⟨g.put "buf" ((b.set i (ans w.tr (.xfer 0))).map byteVal), arrFrame (i + 1 : Nat) a size :: fs, w.did ans (.xfer 0)⟩) (o := .next)]
      · exact h3
      · simp only [arrFrame]
        crun []
      · simp only [arrFrame]
        have := (ans w.tr (.xfer 0)).isLt
        crun [hgb, hx, hset, Objs.put_put, List.map_set]
      · simp only [arrFrame]
        crun []
        simp only [Int.natCast_add, Int.natCast_one]

theorem run_read_array (hg : HalAt g h) (buf : Bytes) (hb : g.get "buf" = some (buf.map byteVal)) (size : Nat) (hs : size ≤ 255) (hsb : size ≤ buf.length) (hL : 256 ≤ L)
    (a : Int) (t' : Ty) : ∃ b' w', follow ans (Sx127x.readArray (BitVec.ofInt 8 a) buf size) w = .ok (b', w') ∧ b'.length = buf.length ∧
    call (chipHost ans) dprog L (k + 2) "read_array" [globPtr "radio_hal", .int t a, globPtr "buf", .int t' size] ⟨g, fs, w⟩ =
    .ok (.null, ⟨g.put "buf" (b'.map byteVal), fs, w'⟩) := by
  obtain ⟨b', w', h1, h2, h3⟩ := readLoop_text (L := L) (k := k) fs ans _ rfl size hs (a % 256) hg _ hb size 0 L buf
    ((w.did ans (.select true)).did ans (.xfer (BitVec.ofInt 8 a))) (by omega) hsb (by omega)
  refine ⟨b', w'.did ans (.select false), ?_, h2, ?_⟩
  · simp only [Sx127x.readArray, follow_bind, follow_do, fthen_ok, h1, follow_pure]
  · rw [dcall_fun _ _ _ (f := Sx127xSrc.read_array) (by rfl)]
    simp only [Sx127xSrc.read_array]
    rw [Objs.put_get hb] at h3
    simp only [arrFrame, globPtr, Int.natCast_zero] at h3
    have hsel := (hg.put (x := "buf") (by simp) (b'.map byteVal)).select
    crun [hg.xfer, hg.select, exec_loop, ofInt8_mod, h3, hsel]
end
end Uwan.C.Drv
