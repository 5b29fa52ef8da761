import Verif.Lemmas.Bus

/-!
# Register accesses of the SX127x driver

For each driver function, the exact sequence of register accesses it makes, for every chip.
-/

namespace Uwan.Sx127x
open Spec Prog

theorem regs_append (l1 l2 : List Bus) : regs (l1 ++ l2) = regs l1 ++ regs l2 := by
  simp [regs]

theorem regs_quiet : ∀ l : List Bus, regs (quiet l) = regs l
  | [] => rfl
  | .frame o i :: l => by
    have := regs_quiet l
    simp only [quiet, regs, List.flatMap_cons] at *
    rw [this]
  | .other c r :: l => by
    have := regs_quiet l
    cases c <;> simp only [quiet, regs, List.flatMap_cons] at * <;> first | rw [this] | skip
    simp [accesses]

/-- Every execution is defined and well framed, and `Q` holds of the result and of the register
accesses. -/
def wr {α : Type} (p : Prog α) (Q : α → List Reg → Prop) : Prop := wp p fun a l => Q a (regs l)

theorem wr_exec {α : Type} {p : Prog α} {Q : α → List Reg → Prop} (h : wr p Q) {tr : Trace} {a : α}
    (e : Exec p tr a) : ∃ l, bus tr = some l ∧ Q a (regs l) := by
  obtain ⟨l, hb, hq⟩ := h.2 tr a e
  exact ⟨l, hb, by rwa [regs_quiet] at hq⟩

theorem wr_mono {α : Type} {p : Prog α} {Q R : α → List Reg → Prop} (h : wr p Q) (i : ∀ a l, Q a l → R a l) : wr p R :=
  wp_mono h fun a l => i a (regs l)

theorem wr_pure {α : Type} {a : α} {Q : α → List Reg → Prop} (h : Q a []) : wr (pure a : Prog α) Q := wp_ret h

theorem wr_bind {α β : Type} {p : Prog α} {f : α → Prog β} {Q : β → List Reg → Prop}
    (h : wr p fun a l => wr (f a) fun b l' => Q b (l ++ l')) : wr (p >>= f) Q :=
  wp_bind (wp_mono h fun _ _ i => wp_mono i fun _ _ j => by rw [regs_append]; exact j)

theorem or80 (a : Byte) (h : a.toNat < 128) : (a ||| 0x80).toNat = a.toNat + 128 := by
  revert h; revert a; decide +kernel

theorem wr_writeRegs {a : Byte} (ha : a.toNat < 128) {d : Bytes} {Q : Unit → List Reg → Prop}
    (h : Q () (burst .write a.toNat d)) : wr (writeRegs a d) Q := by
  refine wp_bind (wp_frame fun miso hm => wp_ret ?_)
  cases miso with
  | nil => exact nomatch hm
  | cons m ms =>
    simp only [List.append_nil, regs, List.flatMap_cons, List.flatMap_nil, accesses]
    rw [or80 a ha, if_neg (by omega), Nat.add_sub_cancel]
    exact h

theorem wr_writeReg {a d : Byte} (ha : a.toNat < 128) {Q : Unit → List Reg → Prop}
    (h : Q () [.write a.toNat d]) : wr (writeReg a d) Q := by
  refine wp_bind (wp_frame fun miso hm => wp_ret ?_)
  cases miso with
  | nil => exact nomatch hm
  | cons m ms =>
    simp only [List.append_nil, regs, List.flatMap_cons, List.flatMap_nil, accesses]
    rw [or80 a ha, if_neg (by omega), Nat.add_sub_cancel]
    exact h

theorem wr_readReg {a : Byte} (ha : a.toNat < 128) {Q : Byte → List Reg → Prop}
    (h : ∀ v, Q v [.read a.toNat v]) : wr (readReg a) Q := by
  refine wp_bind (wp_frame fun miso hm => ?_)
  match miso, hm with
  | [m, v], _ =>
    refine wp_ret ?_
    simp only [List.append_nil, regs, List.flatMap_cons, List.flatMap_nil, accesses]
    rw [if_pos ha]
    exact h v

theorem wr_do {c : Call} (hc : Plain c) (hr : ∀ b, c ≠ .reset b) {Q : Unit → List Reg → Prop} (h : Q () []) :
    wr (do_ c) Q := by
  refine wp_do hc fun r => ?_
  cases c <;> first | exact h | exact (hr _ rfl).elim

theorem wr_reset {b : Bool} {Q : Unit → List Reg → Prop} (h : Q () [.reset]) : wr (do_ (.reset b)) Q :=
  wp_do (by trivial) fun _ => h

theorem wr_opt {b : Bool} {c : Call} (hc : Plain c) (hr : ∀ b, c ≠ .reset b) {Q : Unit → List Reg → Prop} (h : Q () []) :
    wr (opt b c) Q := by
  cases b with
  | true => exact wr_do hc hr h
  | false => exact wp_ret h

/-- The value `set_op_mode` writes. -/
def opVal (v mode : Byte) : Byte := (v &&& ~~~(0x07 : Byte)) ||| mode

theorem wr_setOpMode {m : Byte} {Q : Unit → List Reg → Prop}
    (h : ∀ v, Q () [.read 1 v, .write 1 (opVal v m)]) : wr (setOpMode m) Q :=
  wr_bind (wr_readReg (by decide) fun v => wr_writeReg (by decide) (h v))

theorem wr_setFreq {f : U32} {Q : Unit → List Reg → Prop}
    (h : Q () (burst .write 6 [BitVec.ofNat 8 (f.toNat * 2 ^ 19 / 32000000 / 2 ^ 16),
      BitVec.ofNat 8 (f.toNat * 2 ^ 19 / 32000000 / 2 ^ 8), BitVec.ofNat 8 (f.toNat * 2 ^ 19 / 32000000)])) :
    wr (setFreq f) Q := by
  unfold setFreq
  exact wr_writeRegs (by decide) h

theorem wr_setPublicNetwork {b : Bool} {Q : Unit → List Reg → Prop}
    (h : Q () [.write 0x39 (if b then 0x34 else 0x14)]) : wr (setPublicNetwork b) Q := by
  unfold setPublicNetwork
  cases b <;> exact wr_writeReg (by decide) h

theorem wr_sleep {hal : Hal} {Q : Unit → List Reg → Prop}
    (h : ∀ v, Q () [.read 1 v, .write 1 (opVal v 0)]) : wr (sleep hal) Q :=
  wr_bind (wr_setOpMode fun v => wr_opt (by trivial) (by simp) (by simpa using h v))

theorem wr_setInvertedIq {b : Bool} {Q : Unit → List Reg → Prop}
    (h : Q () [.write 0x33 (if b then 0x66 else 0x27), .write 0x3b (if b then 0x19 else 0x1d)]) :
    wr (setInvertedIq b) Q := by
  unfold setInvertedIq
  cases b <;> exact wr_bind (wr_writeReg (by decide) (wr_writeReg (by decide) h))

theorem wr_setup {hal : Hal} {p : PktParams} {Q : Unit → List Reg → Prop}
    (h : ∀ v, Q () [.read 1 v, .write 1 (opVal v 1),
      .write 0x1d ((bwTable p.bw ||| crTable p.cr) ||| (if p.implicitHeader then 0x01 else 0x00)),
      .write 0x1e (sfTable p.sf ||| (if p.crcOn then 0x04 else 0x00)),
      .write 0x26 ((if lowDr p.sf then 0x08 else 0x00) ||| 0x04),
      .write 0x33 (if p.invertedIq then 0x66 else 0x27), .write 0x3b (if p.invertedIq then 0x19 else 0x1d)]) :
    wr (setup hal p) Q := by
  refine wr_bind (wr_setOpMode fun v => wr_bind (wr_writeReg (by decide) ?_))
  refine wr_bind (wr_writeReg (by decide) (wr_bind (wr_writeReg (by decide) ?_)))
  exact wr_bind (wr_setInvertedIq (wr_opt (by trivial) (by simp) (by simpa using h v)))

theorem wr_tx {hal : Hal} {buf : Bytes} {Q : Unit → List Reg → Prop}
    (h : ∀ v, Q () ([.write 0x0e 0, .write 0x0d 0] ++ burst .write 0 buf ++
      [.write 0x22 (BitVec.ofNat 8 buf.length), .write 0x11 0xf7, .write 0x40 0x40,
        .read 1 v, .write 1 (opVal v 3)])) :
    wr (tx hal buf) Q := by
  refine wr_bind (wr_writeReg (by decide) (wr_bind (wr_writeReg (by decide) ?_)))
  refine wr_bind (wr_writeRegs (by decide) (wr_bind (wr_writeReg (by decide) ?_)))
  refine wr_bind (wr_writeReg (by decide) (wr_bind (wr_writeReg (by decide) ?_)))
  refine wr_bind (wr_opt (by trivial) (by simp) (wr_setOpMode fun v => ?_))
  simpa using h v

theorem wr_rx {hal : Hal} {len : Byte} {symb : U16} {tmo : U32} {Q : Unit → List Reg → Prop}
    (h : ∀ c v, Q () [.read 0x1e c,
      .write 0x1e ((c &&& ~~~(0x03 : Byte)) ||| ((symb >>> 8).setWidth 8 &&& 0x03)),
      .write 0x1f (symb.setWidth 8), .write 0x0e 0, .write 0x0d 0, .write 0x23 len, .write 0x36 0x02,
      .write 0x3a 0x64, .write 0x11 0x1f, .write 0x40 0x02,
      .read 1 v, .write 1 (opVal v (if tmo = 0 then 6 else 5))]) :
    wr (rx hal len symb tmo) Q := by
  refine wr_bind (wr_readReg (by decide) fun c => wr_bind (wr_writeReg (by decide) ?_))
  refine wr_bind (wr_writeReg (by decide) (wr_bind (wr_writeReg (by decide) ?_)))
  refine wr_bind (wr_writeReg (by decide) (wr_bind (wr_writeReg (by decide) ?_)))
  refine wr_bind (wr_writeReg (by decide) (wr_bind (wr_writeReg (by decide) ?_)))
  refine wr_bind (wr_writeReg (by decide) (wr_bind (wr_writeReg (by decide) ?_)))
  refine wr_bind (wr_opt (by trivial) (by simp) ?_)
  by_cases ht : tmo = 0
  · rw [if_pos ht]
    refine wr_setOpMode fun v => ?_
    have := h c v
    rw [if_pos ht] at this
    simpa using this
  · rw [if_neg ht]
    refine wr_setOpMode fun v => ?_
    have := h c v
    rw [if_neg ht] at this
    simpa using this

/-- The PA configuration for a power in range. -/
def paVal (p : BitVec 8) : Byte :=
  if p.toInt ≤ 14 then
    if p.toInt < 0 then (p + 4) &&& 0x0f else 0x70 ||| (p &&& 0x0f)
  else 0x80 ||| ((p - 2) &&& 0x0f)

theorem wr_setPower_in {p : BitVec 8} {off : BitVec 16} (hp : -4 ≤ p.toInt ∧ p.toInt ≤ 17)
    {Q : Bool × BitVec 16 → List Reg → Prop}
    (h : Q (true, BitVec.ofInt 16 (if p.toInt ≤ 14 then -164 else -157)) [.write 0x09 (paVal p)]) :
    wr (setPower p off) Q := by
  unfold setPower
  rw [if_neg (by omega)]
  by_cases h14 : p.toInt ≤ 14
  · rw [if_pos h14]
    rw [if_pos h14] at h
    by_cases h0 : p.toInt < 0
    · simp only [if_pos h0]
      refine wr_bind (wr_writeReg (by decide) (wr_pure ?_))
      simp only [paVal, if_pos h14, if_pos h0] at h
      simpa using h
    · simp only [if_neg h0]
      refine wr_bind (wr_writeReg (by decide) (wr_pure ?_))
      simp only [paVal, if_pos h14, if_neg h0] at h
      simpa using h
  · rw [if_neg h14]
    rw [if_neg h14] at h
    refine wr_bind (wr_writeReg (by decide) (wr_pure ?_))
    simp only [paVal, if_neg h14] at h
    simpa using h

theorem setPower_out {p : BitVec 8} (off : BitVec 16) (hp : ¬(-4 ≤ p.toInt ∧ p.toInt ≤ 17)) :
    setPower p off = pure (false, off) := by
  unfold setPower
  rw [if_pos (by omega)]

theorem wr_irqHandler {b : Bool} {Q : Byte → List Reg → Prop}
    (h : ∀ f : Byte, Q ((((0 ||| if f &&& 0x08 ≠ 0 then 0x04 else 0) ||| if f &&& 0x40 ≠ 0 then 0x02 else 0)
        ||| if f &&& 0x80 ≠ 0 then 0x01 else 0) ||| if f &&& 0x20 ≠ 0 then 0x08 else 0)
      [.read 0x12 f, .write 0x12 ((((0 ||| if f &&& 0x08 ≠ 0 then 0x08 else 0) ||| if f &&& 0x40 ≠ 0 then 0x40 else 0)
        ||| if f &&& 0x80 ≠ 0 then 0x80 else 0) ||| if f &&& 0x20 ≠ 0 then 0x20 else 0)]) :
    wr (irqHandler b) Q := by
  refine wr_bind (wr_readReg (by decide) fun f => ?_)
  refine wr_bind (wr_writeReg (by decide) (wr_bind (wr_opt (by trivial) (by simp) (wr_pure ?_))))
  simpa using h f

/-! ## Loops -/

theorem wr_calLoop : ∀ (n : Nat) {Q : Nat → List Reg → Prop},
    (∀ vs : Bytes, vs ≠ [] → vs.length ≤ n + 1 → (∀ v ∈ vs.dropLast, v &&& 0x20 ≠ 0) →
      (vs.length < n + 1 → ∃ v, vs.getLast? = some v ∧ v &&& 0x20 = 0) →
      Q (n + 1 - vs.length) (vs.map (.read 0x3b ·))) →
    wr (calLoop (n + 1)) Q := by
  intro n
  induction n with
  | zero =>
    intro Q h
    refine wr_bind (wr_do (by trivial) (by simp) (wr_bind (wr_readReg (by decide) fun v => ?_)))
    rw [if_neg (by simp)]
    refine wr_pure ?_
    simpa using h [v] (by simp) (by simp) (by simp) (by simp)
  | succ n ih =>
    intro Q h
    refine wr_bind (wr_do (by trivial) (by simp) (wr_bind (wr_readReg (by decide) fun v => ?_)))
    by_cases hv : v &&& 0x20 ≠ 0
    · rw [if_pos ⟨by omega, hv⟩]
      refine ih fun vs h0 h1 h2 h3 => ?_
      have := h (v :: vs) (by simp) (by simp; omega)
        (by rw [List.dropLast_cons_of_ne_nil h0]; intro x hx; rcases List.mem_cons.1 hx with rfl | hx
            · exact hv
            · exact h2 x hx)
        (by intro hl
            obtain ⟨w, hw, hw'⟩ := h3 (by simp at hl; omega)
            exact ⟨w, by rw [List.getLast?_cons_of_ne_nil h0]; exact hw, hw'⟩)
      have e : n + 1 + 1 - (v :: vs).length = n + 1 - vs.length := by simp
      rw [e] at this
      simpa using this
    · rw [if_neg (fun h => hv h.2)]
      refine wr_pure ?_
      have hv' : v &&& 0x20 = 0 := Classical.byContradiction hv
      simpa using h [v] (by simp) (by simp) (by simp) (by intro _; exact ⟨v, rfl, hv'⟩)

/-- The accesses of `init` up to the version check, for a chip reporting `v`. -/
def initHead (v : Byte) : List Reg := [.reset, .reset, .read 0x42 v]

/-- The frequency used for calibration. -/
def calFreq : List Reg := burst .write 6 [0xd9, 0x33, 0x33]

theorem wr_init {hal : Hal} {Q : Bool → List Reg → Prop}
    (hv : ∀ v, v ≠ 0x12 → Q false (initHead v))
    (hc : ∀ (v : Byte) (vs : Bytes), vs.length = 255 → (∀ x ∈ vs.dropLast, x &&& 0x20 ≠ 0) →
      Q false (initHead 0x12 ++ calFreq ++ [.read 0x3b v, .write 0x3b (v ||| 0x40)] ++ vs.map (.read 0x3b ·)))
    (hk : ∀ (v : Byte) (vs : Bytes), vs.length ≤ 254 → (∃ x, vs.getLast? = some x ∧ x &&& 0x20 = 0) →
      (∀ x ∈ vs.dropLast, x &&& 0x20 ≠ 0) →
      Q true (initHead 0x12 ++ calFreq ++ [.read 0x3b v, .write 0x3b (v ||| 0x40)] ++ vs.map (.read 0x3b ·) ++
        [.write 1 0, .write 1 0x80, .write 0x39 0x34, .write 0x0a 0x08, .write 0x0c 0x23])) :
    wr (init hal) Q := by
  refine wr_bind (wr_reset (wr_bind (wr_do (by trivial) (by simp) (wr_bind (wr_reset ?_)))))
  refine wr_bind (wr_do (by trivial) (by simp) (wr_bind (wr_opt (by trivial) (by simp) ?_)))
  refine wr_bind (wr_readReg (by decide) fun v => ?_)
  by_cases hv' : v ≠ 0x12
  · rw [if_pos hv']
    refine wr_pure ?_
    simpa [initHead] using hv v hv'
  · rw [if_neg hv']
    have hv' : v = 0x12 := Classical.byContradiction hv'
    subst hv'
    refine wr_bind (wr_bind (wr_setFreq (wr_bind (wr_readReg (by decide) fun v => wr_bind
      (wr_writeReg (by decide) (wr_bind (wr_calLoop 254 fun vs h0 h1 h2 h3 => wr_pure ?_)))))))
    by_cases hl : vs.length = 255
    · have e : (254 + 1 - vs.length != 0) = false := by rw [hl]; rfl
      rw [e, if_pos rfl]
      refine wr_pure ?_
      have := hc v vs hl h2
      simpa [initHead, calFreq, burst] using this
    · have e : (254 + 1 - vs.length != 0) = true := by simp; omega
      rw [e, if_neg (by decide)]
      refine wr_bind (wr_writeReg (by decide) (wr_bind (wr_writeReg (by decide) (wr_bind (wr_setPublicNetwork ?_)))))
      refine wr_bind (wr_writeReg (by decide) (wr_bind (wr_writeReg (by decide) (wr_pure ?_))))
      have := hk v vs (by omega) (h3 (by omega)) h2
      simpa [initHead, calFreq, burst] using this

/-- The number `randLoop` builds from the values read. -/
def randOf : Nat → U32 → Bytes → U32
  | _, r, [] => r
  | i, r, v :: vs => randOf (i + 1) (r ||| ((v &&& 0x01).setWidth 32 <<< i)) vs

/-- Whether bit 31 was set by a signed shift on the way. -/
def overOf : Nat → Bool → Bytes → Bool
  | _, b, [] => b
  | i, b, v :: vs => overOf (i + 1) (b || (i == 31 && (v &&& 0x01) != 0)) vs

theorem wr_randLoop : ∀ (n i : Nat) (r : U32) (ub : Bool) {Q : U32 × Bool → List Reg → Prop},
    (∀ vs : Bytes, vs.length = n → Q (randOf i r vs, overOf i ub vs) (vs.map (.read 0x2c ·))) → wr (randLoop n i r ub) Q
  | 0, _, _, _, Q, h => wr_pure (h [] rfl)
  | n + 1, i, r, ub, Q, h => by
    refine wr_bind (wr_do (by trivial) (by simp) (wr_bind (wr_readReg (by decide) fun v => ?_)))
    refine wr_randLoop n _ _ _ fun vs hl => ?_
    have := h (v :: vs) (by simp [hl])
    simp only [List.singleton_append, List.nil_append, List.append_assoc]
    exact this

theorem bit0 (v : Byte) (k : Nat) : (v &&& 0x01).getLsbD k = (decide (k = 0) && v.getLsbD 0) := by
  simp only [BitVec.getLsbD_and]
  cases k with
  | zero => simp
  | succ k =>
    have : (0x01 : Byte).getLsbD (k + 1) = false := by
      rcases Nat.lt_or_ge (k + 1) 8 with h | h
      · have : ∀ k, k < 7 → (0x01 : Byte).getLsbD (k + 1) = false := by decide
        exact this k (by omega)
      · exact BitVec.getLsbD_of_ge _ _ h
    rw [this]
    simp

theorem randOf_bit : ∀ (vs : Bytes) (i : Nat) (r : U32) (k : Nat), k < 32 →
    (randOf i r vs).getLsbD k = (r.getLsbD k || (decide (i ≤ k) && (vs.getD (k - i) 0).getLsbD 0))
  | [], i, r, k, _ => by simp [randOf]
  | v :: vs, i, r, k, hk => by
    rw [randOf, randOf_bit vs (i + 1) _ k hk]
    simp only [BitVec.getLsbD_or, BitVec.getLsbD_shiftLeft, BitVec.getLsbD_setWidth, bit0, hk, decide_true, Bool.true_and]
    by_cases h1 : k < i
    · simp [h1, show ¬ i ≤ k by omega, show ¬ i + 1 ≤ k by omega]
    · by_cases h2 : k = i
      · subst h2
        simp [show ¬ k + 1 ≤ k by omega]
      · have e : k - i = (k - (i + 1)) + 1 := by omega
        rw [e]
        simp [h1, show i ≤ k by omega, show i + 1 ≤ k by omega]

theorem overOf_bit : ∀ (vs : Bytes) (i : Nat) (b : Bool), i ≤ 31 →
    overOf i b vs = (b || (vs.getD (31 - i) 0).getLsbD 0)
  | [], i, b, _ => by simp [overOf]
  | v :: vs, i, b, hi => by
    rw [overOf]
    by_cases h : i = 31
    · subst h
      have : ∀ (vs : Bytes) (i : Nat) (b : Bool), 31 < i → overOf i b vs = b := by
        intro vs
        induction vs with
        | nil => intros; rfl
        | cons v vs ih =>
          intro i b h
          rw [overOf, ih _ _ (by omega)]
          have : (i == 31) = false := by simp; omega
          simp [this]
      rw [this vs 32 _ (by decide)]
      have : ∀ v : Byte, ((v &&& 0x01) != 0) = v.getLsbD 0 := by decide +kernel
      rw [this]
      simp
    · have e : 31 - i = (31 - (i + 1)) + 1 := by omega
      have : (i == 31) = false := by simpa using h
      rw [overOf_bit vs (i + 1) _ (by omega), e]
      simp [this]

/-! ## The packet buffer -/

/-- The caller's array with `vs` written from index `i`. -/
def over (buf : Bytes) (i : Nat) (vs : Bytes) : Bytes := buf.take i ++ vs ++ buf.drop (i + vs.length)

theorem over_cons {buf : Bytes} {i : Nat} {v : Byte} {vs : Bytes} (h : i + vs.length + 1 ≤ buf.length) :
    over (buf.set i v) (i + 1) vs = over buf i (v :: vs) := by
  unfold over
  apply List.ext_getElem
  · simp; omega
  · intro k h1 h2
    simp only [List.length_append, List.length_take, List.length_set, List.length_drop] at h1
    simp only [List.getElem_append, List.length_append, List.length_take, List.length_set, List.getElem_take,
      List.getElem_set, List.getElem_drop, List.length_cons, List.getElem_cons]
    have e : min (i + 1) buf.length = i + 1 := by omega
    have e' : min i buf.length = i := by omega
    simp only [e, e']
    by_cases hk : k < i
    · simp [show k < i + 1 + vs.length by omega, show k < i + 1 by omega, show k < i + (vs.length + 1) by omega, hk,
        show i ≠ k by omega]
    · by_cases hk2 : k = i
      · subst hk2
        simp [show k < k + 1 + vs.length by omega, show k < k + (vs.length + 1) by omega]
      · by_cases hk3 : k < i + 1 + vs.length
        · simp [hk3, show ¬ k < i + 1 by omega, show k < i + (vs.length + 1) by omega, hk, show k - i ≠ 0 by omega,
            show k - (i + 1) = k - i - 1 by omega]
        · simp [hk3, show ¬ k < i + (vs.length + 1) by omega, show i ≠ i + 1 + vs.length + (k - (i + 1 + vs.length)) by omega]
          congr 1
          omega

theorem wp_store {buf : Bytes} {i : Nat} {v : Byte} (h : i < buf.length) {Q : Bytes → List Bus → Prop}
    (hq : Q (buf.set i v) []) : wp (store buf i v) Q := by
  unfold store
  rw [if_pos h]
  exact wp_ret hq

/-- A read loop as a run of transfers: what it reads lands in the array. -/
theorem exec_readLoop : ∀ (n i : Nat) (buf : Bytes), i + n ≤ buf.length →
    (readLoop n i buf).Safe ∧ ∀ tr b, Exec (readLoop n i buf) tr b →
      ∃ vs : Bytes, vs.length = n ∧ b = over buf i vs ∧ tr = vs.map fun v => (.xfer 0x00, v)
  | 0, i, buf, _ => ⟨trivial, fun tr b e => by
      obtain ⟨rfl, rfl⟩ := exec_ret e
      exact ⟨[], rfl, by simp [over], rfl⟩⟩
  | n + 1, i, buf, h => by
    have st : ∀ v, store buf i v = Prog.ret (buf.set i v) := fun v => by unfold store; rw [if_pos (by omega)]; rfl
    constructor
    · intro v
      show (Prog.bind (store buf i v) _).Safe
      rw [st]
      exact (exec_readLoop n (i + 1) _ (by simp; omega)).1
    · intro tr b e
      cases e with
      | @call _ _ v tr _ e =>
        have e : Exec (Prog.bind (store buf i v) fun buf => readLoop n (i + 1) buf) tr b := e
        rw [st] at e
        obtain ⟨vs, hl, rfl, rfl⟩ := (exec_readLoop n (i + 1) _ (by simp; omega)).2 _ _ e
        exact ⟨v :: vs, by simp [hl], over_cons (by omega), rfl⟩

theorem group_reads (x : Byte) : ∀ (vs o i : Bytes) (t : Trace),
    group (some (o, i)) (vs.map (fun v => (.xfer x, v)) ++ t) =
      group (some (o ++ List.replicate vs.length x, i ++ vs)) t
  | [], o, i, t => by simp
  | v :: vs, o, i, t => by
    simp only [List.map_cons, List.cons_append, group]
    rw [group_reads x vs]
    simp [List.replicate_succ]

theorem wp_readArray {a : Byte} {buf : Bytes} {n : Nat} (h : n ≤ buf.length) {Q : Bytes → List Bus → Prop}
    (hq : ∀ m vs, vs.length = n → Q (vs ++ buf.drop n) [.frame (a :: List.replicate n 0) (m :: vs)]) :
    wp (readArray a buf n) Q := by
  have key := exec_readLoop n 0 buf (by omega)
  refine ⟨?_, fun tr b e => ?_⟩
  · intro r r'
    show (Prog.bind (readLoop n 0 buf) fun b => Prog.bind (do_ (.select false)) fun _ => pure b).Safe
    exact safe_bind key.1 fun _ _ _ _ => trivial
  · cases e with
    | call e => cases e with
      | @call _ _ m tr _ e =>
        have e : Exec (Prog.bind (readLoop n 0 buf) fun b => Prog.bind (do_ (.select false)) fun _ => pure b) tr b := e
        obtain ⟨t1, t2, b', rfl, e1, e2⟩ := exec_bind e
        obtain ⟨vs, hl, rfl, rfl⟩ := key.2 _ _ e1
        cases e2 with
        | call e2 =>
          obtain ⟨rfl, rfl⟩ := exec_ret e2
          refine ⟨_, ?_, (by simpa [over, hl, quiet] using hq m vs hl : Q _ (quiet [.frame (a :: List.replicate n 0) (m :: vs)]))⟩
          simp only [bus, group, List.nil_append]
          rw [group_reads, hl]
          rfl

/-- The accesses of `read_packet` for a chip reporting a packet at `ptr` of `n` bytes. -/
def pktRegs (ptr n : Byte) (data : Bytes) (snr rssi : Byte) : List Reg :=
  [.read 0x10 ptr, .write 0x0d ptr, .read 0x13 n] ++ data.map (.read 0 ·) ++ [.read 0x19 snr, .read 0x1a rssi]

theorem burst_zero (f : Nat → Byte → Reg) : ∀ vs : Bytes, burst f 0 vs = vs.map (f 0 ·)
  | [] => rfl
  | v :: vs => by simp [burst, burst_zero f vs]

theorem wr_readPacket {off : BitVec 16} {buf : Bytes} {Q : PktOut → List Reg → Prop}
    (h : ∀ (ptr n : Byte) (data : Bytes) (snr rssi : Byte), data.length = min n.toNat buf.length →
      Q ⟨data ++ buf.drop data.length, data.length, off + rssi.setWidth 16, snrOf snr⟩ (pktRegs ptr n data snr rssi)) :
    wr (readPacket off buf) Q := by
  refine wr_bind (wr_readReg (by decide) fun ptr => wr_bind (wr_writeReg (by decide) (wr_bind
    (wr_readReg (by decide) fun n => ?_))))
  have em : (if n.toNat > buf.length then buf.length else n.toNat) = min n.toNat buf.length := by split <;> omega
  rw [em]
  generalize hk : min n.toNat buf.length = k
  by_cases h0 : k > 0
  · simp only [if_pos h0]
    refine wr_bind (wp_readArray (by omega) fun m data hd => ?_)
    refine wr_bind (wr_readReg (by decide) fun snr => wr_bind (wr_readReg (by decide) fun rssi => wr_pure ?_))
    have := h ptr n data snr rssi (by omega)
    rw [hd] at this
    simpa [pktRegs, regs, accesses, burst_zero] using this
  · simp only [if_neg h0]
    refine wr_bind (wr_pure ?_)
    refine wr_bind (wr_readReg (by decide) fun snr => wr_bind (wr_readReg (by decide) fun rssi => wr_pure ?_))
    have := h ptr n [] snr rssi (by simp; omega)
    have ek : k = 0 := by omega
    subst ek
    simpa [pktRegs] using this

end Uwan.Sx127x

namespace Uwan.Sx127x
open Spec Prog

/-! ## Whole calls -/

theorem wp_readReg {a : Byte} {Q : Byte → List Bus → Prop}
    (h : ∀ m v, Q v [.frame [a, 0] [m, v]]) : wp (readReg a) Q := by
  refine wp_bind (wp_frame fun miso hm => ?_)
  match miso, hm with
  | [m, v], _ => exact wp_ret (by simpa using h m v)

theorem wp_writeReg {a d : Byte} {Q : Unit → List Bus → Prop}
    (h : ∀ m, m.length = 2 → Q () [.frame [a ||| 0x80, d] m]) : wp (writeReg a d) Q :=
  wp_bind (wp_frame fun miso hm => wp_ret (by simpa using h miso hm))

theorem wr_rand {Q : U32 × Bool → List Reg → Prop}
    (h : ∀ v w (vs : Bytes), vs.length = 32 → Q (randOf 0 0 vs, overOf 0 false vs) ([.write 0x11 0xff, .read 1 v, .write 1 (opVal v 5)] ++
      vs.map (.read 0x2c ·) ++ [.read 1 w, .write 1 (opVal w 0)])) : wr rand Q := by
  refine wr_bind (wr_writeReg (by decide) (wr_bind (wr_setOpMode fun v => wr_bind ?_)))
  refine wr_randLoop 32 0 0 false fun vs hl => wr_bind (wr_setOpMode fun w => wr_pure ?_)
  simpa using h v w vs hl

/-- A finished call, taken apart: the state and HAL it needed and what it did to the registers. -/
theorem wr_weaken {α : Type} {p : Prog α} {Q : α → List Reg → Prop} (h : wr p Q) : wr p fun _ _ => True :=
  wr_mono h fun _ _ _ => trivial

theorem wr_and {α : Type} {p : Prog α} {Q R : α → List Reg → Prop} (h : wr p Q) (k : wr p R) :
    wr p fun a l => Q a l ∧ R a l :=
  ⟨h.1, fun tr a e => by
    obtain ⟨l, hb, hq⟩ := h.2 tr a e
    obtain ⟨l', hb', hr⟩ := k.2 tr a e
    rw [hb] at hb'
    cases hb'
    exact ⟨l, hb, hq, hr⟩⟩

/-- A call through a null HAL never finishes. -/
theorem exec_fail {α : Type} {u : UB} {tr : Trace} {a : α} (h : Exec (.fail u) tr a) : False := nomatch h

/-- What a call does to the registers, given by a predicate on access lists that holds for every driver function. -/
theorem wr_step {P : DOp → List Reg → Prop} {s : St} {op : DOp} (ho : op.Valid)
    (hinit : ∀ hal o, op = .init (some hal) o → wr (init hal) fun _ l => P op l)
    (hnil : ((∃ b, op = .setEvtHandler b) ∨ ∃ p, op = .setPower p) → P op [])
    (hsleep : op = .sleep → ∀ v, P op [.read 1 v, .write 1 (opVal v 0)])
    (hfreq : ∀ f, op = .setFrequency f → P op (burst .write 6 [BitVec.ofNat 8 (f.toNat * 2 ^ 19 / 32000000 / 2 ^ 16),
      BitVec.ofNat 8 (f.toNat * 2 ^ 19 / 32000000 / 2 ^ 8), BitVec.ofNat 8 (f.toNat * 2 ^ 19 / 32000000)]))
    (hpow : ∀ p, op = .setPower p → P op [.write 0x09 (paVal p)])
    (hpub : ∀ b, op = .setPublicNetwork b → P op [.write 0x39 (if b then 0x34 else 0x14)])
    (hsetup : ∀ p, op = .setup p → ∀ v, P op [.read 1 v, .write 1 (opVal v 1),
      .write 0x1d ((bwTable p.bw ||| crTable p.cr) ||| (if p.implicitHeader then 0x01 else 0x00)),
      .write 0x1e (sfTable p.sf ||| (if p.crcOn then 0x04 else 0x00)),
      .write 0x26 ((if lowDr p.sf then 0x08 else 0x00) ||| 0x04),
      .write 0x33 (if p.invertedIq then 0x66 else 0x27), .write 0x3b (if p.invertedIq then 0x19 else 0x1d)])
    (htx : ∀ buf, op = .tx buf → ∀ v, P op ([.write 0x0e 0, .write 0x0d 0] ++ burst .write 0 buf ++
      [.write 0x22 (BitVec.ofNat 8 buf.length), .write 0x11 0xf7, .write 0x40 0x40,
        .read 1 v, .write 1 (opVal v 3)]))
    (hrx : ∀ len symb tmo, op = .rx len symb tmo → ∀ c v, P op [.read 0x1e c,
      .write 0x1e ((c &&& ~~~(0x03 : Byte)) ||| ((symb >>> 8).setWidth 8 &&& 0x03)),
      .write 0x1f (symb.setWidth 8), .write 0x0e 0, .write 0x0d 0, .write 0x23 len, .write 0x36 0x02,
      .write 0x3a 0x64, .write 0x11 0x1f, .write 0x40 0x02,
      .read 1 v, .write 1 (opVal v (if tmo = 0 then 6 else 5))])
    (hpkt : ∀ buf, op = .readPacket buf → ∀ ptr n data snr rssi, P op (pktRegs ptr n data snr rssi))
    (hrand : op = .rand → ∀ v w (vs : Bytes), P op ([.write 0x11 0xff, .read 1 v, .write 1 (opVal v 5)] ++
      vs.map (.read 0x2c ·) ++ [.read 1 w, .write 1 (opVal w 0)]))
    (hirq : op = .irqHandler → ∀ f g, P op [.read 0x12 f, .write 0x12 g])
    {tr : Trace} {x : DRet × St} (e : Exec (step s op) tr x) : ∃ l, bus tr = some l ∧ P op (regs l) := by
  have run : ∀ {α : Type} {p : Prog α} {f : α → DRet × St}, wr p (fun _ l => P op l) → Exec (p >>= fun a => pure (f a)) tr x →
      ∃ l, bus tr = some l ∧ P op (regs l) := by
    intro α p f h e
    obtain ⟨t1, t2, a, rfl, e1, e2⟩ := exec_bind e
    obtain ⟨rfl, _⟩ := exec_ret e2
    rw [List.append_nil]
    exact wr_exec h e1
  have nil : ((∃ b, op = .setEvtHandler b) ∨ ∃ p, op = .setPower p) → ∀ {y}, Exec (pure y) tr x → ∃ l, bus tr = some l ∧ P op (regs l) := by
    intro hn y e
    obtain ⟨rfl, _⟩ := exec_ret e
    exact ⟨[], rfl, hnil hn⟩
  cases op with
  | init hal o =>
    cases hal with
    | none => exact (exec_fail e).elim
    | some hal => exact run (hinit hal o rfl) e
  | setEvtHandler b => exact nil (.inl ⟨_, rfl⟩) e
  | setPower p =>
    cases hh : s.hal with
    | none =>
      simp only [step, hh] at e
      split at e
      · exact nil (.inr ⟨_, rfl⟩) e
      · exact (exec_fail e).elim
    | some hal =>
      simp only [step, hh] at e
      by_cases hp : -4 ≤ p.toInt ∧ p.toInt ≤ 17
      · exact run (wr_setPower_in hp (hpow p rfl)) e
      · rw [setPower_out _ hp] at e
        exact nil (.inr ⟨_, rfl⟩) e
  | sleep =>
    cases hh : s.hal with
    | none => simp only [step, hh] at e; exact (exec_fail e).elim
    | some hal => simp only [step, hh] at e; exact run (wr_sleep (hsleep rfl)) e
  | setFrequency f =>
    cases hh : s.hal with
    | none => simp only [step, hh] at e; exact (exec_fail e).elim
    | some hal => simp only [step, hh] at e; exact run (wr_setFreq (hfreq f rfl)) e
  | setPublicNetwork b =>
    cases hh : s.hal with
    | none => simp only [step, hh] at e; exact (exec_fail e).elim
    | some hal => simp only [step, hh] at e; exact run (wr_setPublicNetwork (hpub b rfl)) e
  | setup p =>
    cases hh : s.hal with
    | none => simp only [step, hh] at e; exact (exec_fail e).elim
    | some hal => simp only [step, hh] at e; exact run (wr_setup (hsetup p rfl)) e
  | tx buf =>
    cases hh : s.hal with
    | none => simp only [step, hh] at e; exact (exec_fail e).elim
    | some hal => simp only [step, hh] at e; exact run (wr_tx (htx buf rfl)) e
  | rx len symb tmo =>
    cases hh : s.hal with
    | none => simp only [step, hh] at e; exact (exec_fail e).elim
    | some hal => simp only [step, hh] at e; exact run (wr_rx (hrx len symb tmo rfl)) e
  | readPacket buf =>
    cases hh : s.hal with
    | none => simp only [step, hh] at e; exact (exec_fail e).elim
    | some hal => simp only [step, hh] at e; exact run (wr_readPacket fun ptr n data snr rssi _ => hpkt buf rfl ptr n data snr rssi) e
  | rand =>
    cases hh : s.hal with
    | none => simp only [step, hh] at e; exact (exec_fail e).elim
    | some hal => simp only [step, hh] at e; exact run (wr_rand fun v w vs _ => hrand rfl v w vs) e
  | irqHandler =>
    cases hh : s.hal with
    | none => simp only [step, hh] at e; exact (exec_fail e).elim
    | some hal => simp only [step, hh] at e; exact run (wr_irqHandler fun f => hirq rfl f _) e

/-! ## Operating mode -/

theorem mode_append : ∀ (l1 l2 : List Reg) (m : OpMode), m.run (l1 ++ l2) = (m.run l1).run l2
  | [], _, _ => rfl
  | x :: l1, l2, m => mode_append l1 l2 (m.next x)

theorem mode_honest_append : ∀ (l1 l2 : List Reg) (m : OpMode),
    m.Honest (l1 ++ l2) ↔ m.Honest l1 ∧ (m.run l1).Honest l2
  | [], _, _ => by simp [OpMode.Honest, OpMode.run]
  | x :: l1, l2, m => by
    simp only [List.cons_append, OpMode.Honest, OpMode.run, mode_honest_append l1 l2 (m.next x)]
    exact and_assoc.symm

/-- Neither a reset nor an access to RegOpMode. -/
def Off1 : Reg → Prop
  | .write a _ => a ≠ 1
  | .read a _ => a ≠ 1
  | .reset => False

theorem mode_off : ∀ {l : List Reg}, (∀ x ∈ l, Off1 x) → ∀ m : OpMode, m.run l = m
  | [], _, _ => rfl
  | x :: l, h, m => by
    have hx := h x (by simp)
    have hn : m.next x = m := by
      cases x with
      | write a v => exact if_neg hx
      | read a v => rfl
      | reset => exact hx.elim
    simp only [OpMode.run, hn]
    exact mode_off (fun y hy => h y (by simp [hy])) m

theorem opVal_spec : ∀ mode : Byte, mode.toNat < 8 → ∀ v : Byte,
    (opVal v mode).toNat / 128 = v.toNat / 128 ∧ (opVal v mode).toNat / 64 % 2 = v.toNat / 64 % 2 ∧
    (opVal v mode).toNat % 8 = mode.toNat := by
  intro mode h v
  have : ∀ m : Fin 8, ∀ v : Byte, (opVal v (BitVec.ofNat 8 m.val)).toNat / 128 = v.toNat / 128 ∧
    (opVal v (BitVec.ofNat 8 m.val)).toNat / 64 % 2 = v.toNat / 64 % 2 ∧
    (opVal v (BitVec.ofNat 8 m.val)).toNat % 8 = m.val := by decide +kernel
  have := this ⟨mode.toNat, h⟩ v
  simpa using this

/-- LoRa mode on the LoRa page. -/
def Lora (m : OpMode) : Prop := m.lora = true ∧ m.shared = false

/-- A read-modify-write of RegOpMode keeps LoRa mode and sets the mode bits. -/
theorem mode_rmw {m : OpMode} {v mode : Byte} (hm : mode.toNat < 8) :
    (m.run [.read 1 v, .write 1 (opVal v mode)]).mode = mode.toNat ∧
    (Lora m → m.Honest [.read 1 v, .write 1 (opVal v mode)] → Lora (m.run [.read 1 v, .write 1 (opVal v mode)])) := by
  obtain ⟨h1, h2, h3⟩ := opVal_spec mode hm v
  refine ⟨h3, fun hl hh => ?_⟩
  have ha := hh.1 rfl
  simp only [Lora, OpMode.run, OpMode.next, OpMode.write, if_pos]
  rw [h1, h2]
  have hv : v.toNat / 128 = 1 := ha.1.2 hl.1
  have hs : ¬ v.toNat / 64 % 2 = 1 := fun h => by have := ha.2.1 h; rw [hl.2] at this; exact nomatch this
  constructor
  · by_cases h0 : m.mode = 0
    · exact (if_pos h0).trans (decide_eq_true hv)
    · exact (if_neg h0).trans hl.1
  · exact decide_eq_false hs

/-- Accesses that stay in LoRa mode. -/
def Stays (l : List Reg) : Prop := ∀ m : OpMode, Lora m → m.Honest l → Lora (m.run l)

theorem stays_off {l : List Reg} (h : ∀ x ∈ l, Off1 x) : Stays l := fun m hm _ => by rw [mode_off h]; exact hm

theorem stays_rmw {v mode : Byte} (hm : mode.toNat < 8) : Stays [.read 1 v, .write 1 (opVal v mode)] :=
  fun _ h hh => (mode_rmw hm).2 h hh

theorem stays_append {l1 l2 : List Reg} (h1 : Stays l1) (h2 : Stays l2) : Stays (l1 ++ l2) := fun m hm hh => by
  rw [mode_append]
  rw [mode_honest_append] at hh
  exact h2 _ (h1 _ hm hh.1) hh.2

theorem burst_off {f : Nat → Byte → Reg} (hf : ∀ a v, a ≠ 1 → Off1 (f a v)) : ∀ (vs : Bytes) (a : Nat), a ≠ 1 →
    ∀ x ∈ burst f a vs, Off1 x
  | [], _, _, x, hx => by simp [burst] at hx
  | v :: vs, a, ha, x, hx => by
    simp only [burst, List.mem_cons] at hx
    rcases hx with rfl | hx
    · exact hf a v ha
    · exact burst_off hf vs _ (by split <;> omega) x hx

/-- Every call but `init` stays in LoRa mode. -/
theorem stays_step {s : St} {op : DOp} (ho : op.Valid) (hi : ∀ a b, op ≠ .init a b) {tr : Trace} {x : DRet × St}
    (e : Exec (step s op) tr x) : ∃ l, bus tr = some l ∧ Stays (regs l) := by
  refine wr_step (P := fun _ l => Stays l) ho (fun hal o h => (hi _ _ h).elim) (fun _ => stays_off (by simp)) ?_ ?_ ?_ ?_ ?_ ?_ ?_ ?_ ?_ ?_ e
  · exact fun _ v => stays_rmw (by decide)
  · exact fun f _ => stays_off (burst_off (f := .write) (fun a v h => h) _ _ (by decide))
  · exact fun p _ => stays_off (by simp [Off1])
  · exact fun b _ => stays_off (by simp [Off1])
  · exact fun p _ v => stays_append (l1 := [_, _]) (stays_rmw (by decide)) (stays_off (by simp [Off1]))
  · intro buf _ v
    refine stays_append (stays_append (stays_off (by simp [Off1])) (stays_off (burst_off (f := .write) (fun a v h => h) _ _ (by decide)))) ?_
    exact stays_append (l1 := [_, _, _]) (stays_off (by simp [Off1])) (stays_rmw (by decide))
  · intro len symb tmo _ c v
    refine stays_append (l1 := [_, _, _, _, _, _, _, _, _, _]) (stays_off (by simp [Off1])) (stays_rmw ?_)
    split <;> decide
  · intro buf _ ptr n data snr rssi
    refine stays_off fun x hx => ?_
    simp only [pktRegs, List.mem_append, List.mem_cons, List.mem_map, List.not_mem_nil, or_false] at hx
    rcases hx with (hx | ⟨v, _, rfl⟩) | hx
    · rcases hx with rfl | rfl | rfl <;> simp [Off1]
    · simp [Off1]
    · rcases hx with rfl | rfl <;> simp [Off1]
  · intro _ v w vs
    refine stays_append (stays_append (l1 := [.write 0x11 0xff, _, _]) ?_ ?_) (stays_rmw (by decide))
    · exact stays_append (l1 := [_]) (stays_off (by simp [Off1])) (stays_rmw (by decide))
    · exact stays_off fun x hx => by obtain ⟨v, _, rfl⟩ := List.mem_map.1 hx; simp [Off1]
  · exact fun _ f g => stays_off (by simp [Off1])

/-- A successful `init` enters LoRa mode, from whatever mode. -/
theorem lora_init {s : St} {hal : Option Hal} {o : Option Sx126x.Opts} {tr : Trace} {s' : St}
    (e : Exec (step s (.init hal o)) tr (.bool true, s')) :
    ∃ l, bus tr = some l ∧ ∀ m : OpMode, m.run (regs l) = ⟨true, false, 0⟩ := by
  cases hal with
  | none => exact (exec_fail e).elim
  | some hal =>
    obtain ⟨t1, t2, ok, rfl, e1, e2⟩ := exec_bind e
    obtain ⟨rfl, ex⟩ := exec_ret e2
    rw [List.append_nil]
    have key : wr (init hal) fun ok l => ok = true → ∀ m : OpMode, m.run l = ⟨true, false, 0⟩ := by
      refine wr_init (fun _ _ h => nomatch h) (fun _ _ _ _ h => nomatch h) ?_
      intro v vs _ _ _ _ m
      rw [mode_append]
      generalize m.run _ = m'
      rfl
    obtain ⟨l, hb, hq⟩ := wr_exec key e1
    have : ok = true := by
      injection ex with ex _
      injection ex with ex
      exact ex.symm
    exact ⟨l, hb, hq this⟩

/-! ## The data buffer -/

theorem exec_map {α β : Type} {p : Prog α} {f : α → β} {tr : Trace} {x : β} (e : Exec (p >>= fun a => pure (f a)) tr x) :
    ∃ a, Exec p tr a ∧ x = f a := by
  obtain ⟨t1, t2, a, rfl, e1, e2⟩ := exec_bind e
  obtain ⟨rfl, ex⟩ := exec_ret e2
  rw [List.append_nil]
  exact ⟨a, e1, ex⟩

theorem chip_append : ∀ (l1 l2 : List Reg) (c : Chip), c.run (l1 ++ l2) = (c.run l1).run l2
  | [], _, _ => rfl
  | x :: l1, l2, c => chip_append l1 l2 (c.access x)

theorem writesOf_append (a : Nat) : ∀ l1 l2 : List Reg, writesOf a (l1 ++ l2) = writesOf a l1 ++ writesOf a l2
  | [], _ => rfl
  | .write b v :: l1, l2 => by
    simp only [List.cons_append, writesOf, writesOf_append a l1 l2]
    split <;> rfl
  | .read b v :: l1, l2 => by simp only [List.cons_append, writesOf, writesOf_append a l1 l2]
  | .reset :: l1, l2 => by simp only [List.cons_append, writesOf, writesOf_append a l1 l2]

theorem readsOf_append (a : Nat) : ∀ l1 l2 : List Reg, readsOf a (l1 ++ l2) = readsOf a l1 ++ readsOf a l2
  | [], _ => rfl
  | .read b v :: l1, l2 => by
    simp only [List.cons_append, readsOf, readsOf_append a l1 l2]
    split <;> rfl
  | .write b v :: l1, l2 => by simp only [List.cons_append, readsOf, readsOf_append a l1 l2]
  | .reset :: l1, l2 => by simp only [List.cons_append, readsOf, readsOf_append a l1 l2]

theorem readsOf_map (a b : Nat) (vs : Bytes) : readsOf a (vs.map (Reg.read b ·)) = if b = a then vs else [] := by
  induction vs with
  | nil => simp [readsOf]
  | cons v vs ih =>
    simp only [List.map_cons, readsOf, ih]
    split <;> rfl

theorem writesOf_reads (a b : Nat) (vs : Bytes) : writesOf a (vs.map (Reg.read b ·)) = [] := by
  induction vs with
  | nil => rfl
  | cons v vs ih => simp only [List.map_cons, writesOf, ih]

theorem writesOf_map (a b : Nat) (vs : Bytes) : writesOf a (vs.map (Reg.write b ·)) = if b = a then vs else [] := by
  induction vs with
  | nil => simp [writesOf]
  | cons v vs ih =>
    simp only [List.map_cons, writesOf, ih]
    split <;> rfl

/-- Filling the FIFO: the bytes land from the pointer on, the pointer advances, other registers keep. -/
theorem chip_fill (buf : Bytes) (h : buf.length ≤ 255) (c : Chip) :
    (∀ i (hi : i < buf.length), (c.run (buf.map (.write 0 ·))).mem (c.reg 0x0d + BitVec.ofNat 8 i) = buf[i]) ∧
    (c.run (buf.map (.write 0 ·))).reg 0x0d = c.reg 0x0d + BitVec.ofNat 8 buf.length ∧
    ∀ a, a ≠ 0x0d → (c.run (buf.map (.write 0 ·))).reg a = c.reg a := by
  suffices key : ∀ n, n ≤ buf.length →
      (∀ i (_ : i < n) (hi : i < buf.length), (c.run ((buf.take n).map (.write 0 ·))).mem (c.reg 0x0d + BitVec.ofNat 8 i) = buf[i]) ∧
      (c.run ((buf.take n).map (.write 0 ·))).reg 0x0d = c.reg 0x0d + BitVec.ofNat 8 n ∧
      ∀ a, a ≠ 0x0d → (c.run ((buf.take n).map (.write 0 ·))).reg a = c.reg a by
    have := key buf.length (Nat.le_refl _)
    rw [List.take_length] at this
    exact ⟨fun i hi => this.1 i hi hi, this.2⟩
  intro n
  induction n with
  | zero => exact fun _ => ⟨fun i hi => absurd hi (by omega), by simp [Chip.run], fun a _ => by simp [Chip.run]⟩
  | succ n ih =>
    intro hn
    obtain ⟨h1, h2, h3⟩ := ih (by omega)
    rw [List.take_add_one, List.getElem?_eq_getElem (by omega : n < buf.length), List.map_append, chip_append]
    generalize c.run ((buf.take n).map (.write 0 ·)) = c' at h1 h2 h3 ⊢
    simp only [Option.toList, List.map_cons, List.map_nil, Chip.run, Chip.access, if_pos]
    refine ⟨fun i hi hb => ?_, ?_, fun a ha => ?_⟩
    · simp only [put, h2]
      by_cases he : i = n
      · subst he; simp
      · have : ¬ c.reg 0x0d + BitVec.ofNat 8 i = c.reg 0x0d + BitVec.ofNat 8 n := by
          intro hc
          have hc := BitVec.add_right_inj _ |>.1 hc
          have := congrArg BitVec.toNat hc
          simp only [BitVec.toNat_ofNat] at this
          omega
        rw [if_neg this]
        exact h1 i (by omega) hb
    · simp only [put, if_pos, h2]
      rw [BitVec.add_assoc]
      congr 1
      apply BitVec.eq_of_toNat_eq
      simp
    · simp only [put, if_neg ha, h3 a ha]

theorem chip_honest_append (S : List Nat) : ∀ (l1 l2 : List Reg) (c : Chip),
    c.Honest S (l1 ++ l2) ↔ c.Honest S l1 ∧ (c.run l1).Honest S l2
  | [], _, _ => by simp [Chip.Honest, Chip.run]
  | .read a v :: l1, l2, c => by
    simp only [List.cons_append, Chip.Honest, Chip.run, chip_honest_append S l1 l2]
    exact and_assoc.symm
  | .write a v :: l1, l2, c => by simp only [List.cons_append, Chip.Honest, Chip.run, chip_honest_append S l1 l2]
  | .reset :: l1, l2, c => by simp only [List.cons_append, Chip.Honest, Chip.run, chip_honest_append S l1 l2]

/-- Reading the FIFO of an honest chip gives the data buffer from the pointer on. -/
theorem chip_drain {S : List Nat} (hS : 0 ∈ S) : ∀ (vs : Bytes) (c : Chip), c.Honest S (vs.map (Reg.read 0 ·)) →
    ∀ i (hi : i < vs.length), vs[i] = c.mem (c.reg 0x0d + BitVec.ofNat 8 i)
  | [], _, _, i, hi => absurd hi (by simp)
  | v :: vs, c, h, i, hi => by
    simp only [List.map_cons, Chip.Honest] at h
    cases i with
    | zero => simpa using h.1 hS
    | succ i =>
      have := chip_drain hS vs _ h.2 i (by simpa using hi)
      simp only [List.getElem_cons_succ, this, Chip.access, if_pos, put]
      congr 1
      rw [BitVec.add_assoc]
      congr 1
      apply BitVec.eq_of_toNat_eq
      simp
      omega

/-! ## Interrupts -/

theorem wp_irqHandler {b : Bool} {Q : Byte → List Bus → Prop}
    (h : ∀ (m1 f : Byte) (m2 : Bytes) (r : Byte) (cf res : Byte), m2.length = 2 →
      cf = f &&& 0xe8 → maskEvents res = some (flags127 f) →
      Q res ([.frame [0x12, 0] [m1, f], .frame [0x92, cf] m2] ++ if b then [.other (.handler res) r] else [])) :
    wp (irqHandler b) Q := by
  refine wp_bind (wp_readReg fun m1 f => ?_)
  refine wp_bind (wp_writeReg fun m2 hm => wp_bind (wp_opt (by trivial) fun r => wp_pure ?_))
  have hc : ∀ f : Byte, (((0 ||| if f &&& 0x08 ≠ 0 then 0x08 else 0) ||| if f &&& 0x40 ≠ 0 then 0x40 else 0)
        ||| if f &&& 0x80 ≠ 0 then 0x80 else 0) ||| (if f &&& 0x20 ≠ 0 then 0x20 else 0) = f &&& 0xe8 := by decide +kernel
  have hr : ∀ f : Byte, maskEvents ((((0 ||| if f &&& 0x08 ≠ 0 then 0x04 else 0) ||| if f &&& 0x40 ≠ 0 then 0x02 else 0)
        ||| if f &&& 0x80 ≠ 0 then 0x01 else 0) ||| if f &&& 0x20 ≠ 0 then 0x08 else 0) = some (flags127 f) := by decide +kernel
  have := h m1 f m2 r _ _ hm (hc f) (hr f)
  simpa using this

/-! ## Safety and termination -/

theorem noPoll_bind {α β : Type} : ∀ {p : Prog α} {f : α → Prog β}, p.NoPoll → (∀ a, (f a).NoPoll) → (p.bind f).NoPoll
  | .ret a, _, _, h => h a
  | .call _ _, _, h, k => fun r => noPoll_bind (h r) k
  | .fail _, _, _, _ => trivial
  | .poll _, _, h, _ => h.elim

theorem noPoll_bind' {α β : Type} {p : Prog α} {f : α → Prog β} (h : p.NoPoll) (k : ∀ a, (f a).NoPoll) :
    (p >>= f).NoPoll := noPoll_bind h k

theorem noPoll_do (c : Call) : (do_ c).NoPoll := fun _ => trivial

theorem noPoll_opt (b : Bool) (c : Call) : (Prog.opt b c).NoPoll := by
  cases b
  · exact trivial
  · exact noPoll_do c

theorem noPoll_xfers : ∀ bs : Bytes, (xfers bs).NoPoll
  | [] => trivial
  | _ :: bs => noPoll_bind (fun _ => trivial) fun _ => noPoll_bind (noPoll_xfers bs) fun _ => trivial

theorem noPoll_frame (bs : Bytes) : (frame bs).NoPoll :=
  noPoll_bind (noPoll_do _) fun _ => noPoll_bind (noPoll_xfers _) fun _ => noPoll_bind (noPoll_do _) fun _ => trivial

theorem noPoll_writeReg (a d : Byte) : (writeReg a d).NoPoll := noPoll_bind' (noPoll_frame _) fun _ => trivial
theorem noPoll_writeRegs (a : Byte) (d : Bytes) : (writeRegs a d).NoPoll := noPoll_bind' (noPoll_frame _) fun _ => trivial
theorem noPoll_readReg (a : Byte) : (readReg a).NoPoll := noPoll_bind' (noPoll_frame _) fun m => by
  split <;> trivial
theorem noPoll_setOpMode (a : Byte) : (setOpMode a).NoPoll :=
  noPoll_bind' (noPoll_readReg _) fun _ => noPoll_writeReg _ _

theorem noPoll_calLoop : ∀ n, (calLoop n).NoPoll
  | 0 => trivial
  | n + 1 => noPoll_bind' (noPoll_do _) fun _ => noPoll_bind' (noPoll_readReg _) fun v => by
    split
    · exact noPoll_calLoop n
    · trivial

theorem noPoll_init (h : Hal) : (init h).NoPoll := by
  refine noPoll_bind' (noPoll_do _) fun _ => noPoll_bind' (noPoll_do _) fun _ => noPoll_bind' (noPoll_do _) fun _ =>
    noPoll_bind' (noPoll_do _) fun _ => noPoll_bind' (noPoll_opt _ _) fun _ => noPoll_bind' (noPoll_readReg _) fun v => ?_
  split
  · trivial
  · refine noPoll_bind' (noPoll_bind' (noPoll_writeRegs _ _) fun _ => noPoll_bind' (noPoll_readReg _) fun _ =>
      noPoll_bind' (noPoll_writeReg _ _) fun _ => noPoll_bind' (noPoll_calLoop _) fun _ => trivial) fun cal => ?_
    split
    · trivial
    · exact noPoll_bind' (noPoll_writeReg _ _) fun _ => noPoll_bind' (noPoll_writeReg _ _) fun _ =>
        noPoll_bind' (noPoll_writeReg _ _) fun _ => noPoll_bind' (noPoll_writeReg _ _) fun _ =>
        noPoll_bind' (noPoll_writeReg _ _) fun _ => trivial

/-- A program without undefined behaviour runs to its end against every chip. -/
theorem play_total {α σ : Type} (chip : σ → Call → Byte × σ) : ∀ (p : Prog α), p.Safe → ∀ s : σ, ∃ x, p.play chip s = some x
  | .ret a, _, s => ⟨_, rfl⟩
  | .call c k, h, s => by
    obtain ⟨⟨tr, a, s'⟩, hx⟩ := play_total chip _ (h (chip s c).1) (chip s c).2
    exact ⟨((c, (chip s c).1) :: tr, a, s'), by simp [Prog.play, hx]⟩
  | .poll k, h, s => by
    obtain ⟨⟨tr, a, s'⟩, hx⟩ := play_total chip k h s
    exact ⟨((.isBusy, 0) :: tr, a, s'), by simp [Prog.play, hx]⟩
  | .fail _, h, _ => h.elim

theorem safe_map {α β : Type} {p : Prog α} {f : α → β} (h : p.Safe) : (p >>= fun a => pure (f a)).Safe :=
  safe_bind h fun _ _ _ => trivial

/-- With a HAL no call does anything undefined. -/
theorem safe_step {s : St} {hal : Hal} (hh : s.hal = some hal) (op : DOp) (hv : op.Valid)
    (hi : ∀ o, op ≠ .init none o) : (step s op).Safe := by
  cases op with
  | init h o =>
    cases h with
    | none => exact (hi o rfl).elim
    | some h =>
      have : wr (init h) fun _ _ => True := wr_init (fun _ _ => trivial) (fun _ _ _ _ => trivial) (fun _ _ _ _ _ => trivial)
      exact safe_map this.1
  | setEvtHandler b => exact trivial
  | setPower p =>
    simp only [step, hh]
    by_cases hp : -4 ≤ p.toInt ∧ p.toInt ≤ 17
    · have : wr (setPower p s.rssiOffset) fun _ _ => True := wr_setPower_in hp trivial
      exact safe_bind this.1 fun _ _ _ => trivial
    · rw [setPower_out _ hp]
      exact trivial
  | sleep => simp only [step, hh]; exact safe_map (wr_sleep (Q := fun _ _ => True) fun _ => trivial).1
  | setFrequency f => simp only [step, hh]; exact safe_map (wr_setFreq (Q := fun _ _ => True) trivial).1
  | setPublicNetwork b => simp only [step, hh]; exact safe_map (wr_setPublicNetwork (Q := fun _ _ => True) trivial).1
  | setup p => simp only [step, hh]; exact safe_map (wr_setup (Q := fun _ _ => True) fun _ => trivial).1
  | tx buf => simp only [step, hh]; exact safe_map (wr_tx (Q := fun _ _ => True) fun _ => trivial).1
  | rx len symb tmo => simp only [step, hh]; exact safe_map (wr_rx (Q := fun _ _ => True) fun _ _ => trivial).1
  | readPacket buf => simp only [step, hh]; exact safe_map (wr_readPacket (Q := fun _ _ => True) fun _ _ _ _ _ _ => trivial).1
  | rand => simp only [step, hh]; exact safe_map (wr_rand (Q := fun _ _ => True) fun _ _ _ _ => trivial).1
  | irqHandler => simp only [step, hh]; exact safe_map (wr_irqHandler (Q := fun _ _ => True) fun _ => trivial).1

/-! ## Histories -/

theorem lastInit_snoc (log : List DItem) (x : DItem) : lastInit (log ++ [x]) =
    match x.op with | .init _ _ => some x.ret | _ => lastInit log := by
  induction log with
  | nil => simp only [List.nil_append, lastInit]; cases x.op <;> rfl
  | cons y log ih =>
    simp only [List.cons_append, lastInit, ih]
    cases x.op <;> rfl

theorem lastPower_snoc (log : List DItem) (x : DItem) : lastPower (log ++ [x]) =
    match x.op with
    | .setPower p => if x.ret = .bool true then some p else lastPower log
    | _ => lastPower log := by
  induction log with
  | nil => simp only [List.nil_append, lastPower]; cases x.op <;> rfl
  | cons y log ih =>
    simp only [List.cons_append, lastPower, ih]
    cases x.op <;> try rfl
    by_cases h : x.ret = .bool true
    · simp only [if_pos h]
    · simp only [if_neg h]

theorem wire_snoc (log : List DItem) (x : DItem) : wire (log ++ [x]) = wire log ++ x.tr := by
  simp [wire, List.flatMap_append]

end Uwan.Sx127x
