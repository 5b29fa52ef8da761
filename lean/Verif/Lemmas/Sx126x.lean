import Verif.Lemmas.Sx127x

/-!
# Reasoning about SX126x driver programs

`wd d b Q`: from `is_sleep = b` the driver function `d` is safe, well framed, and its result, the new
`is_sleep` and the bus activity without BUSY polls satisfy `Q`.
-/

namespace Uwan.Sx126x
open Spec Prog

def wd {α : Type} (d : Drv α) (b : Bool) (Q : α → Bool → List Bus → Prop) : Prop :=
  wp (d b) fun x l => Q x.1 x.2 l

theorem wd_pure {α : Type} {a : α} {b : Bool} {Q : α → Bool → List Bus → Prop} (h : Q a b []) :
    wd (pure a : Drv α) b Q := wp_ret h

theorem wd_bind {α β : Type} {d : Drv α} {f : α → Drv β} {b : Bool} {Q : β → Bool → List Bus → Prop}
    (h : wd d b fun a b' l => wd (f a) b' fun c b'' l' => Q c b'' (l ++ l')) : wd (d >>= f) b Q :=
  wp_bind' (p := d b) (f := fun x => f x.1 x.2) h

theorem wd_mono {α : Type} {d : Drv α} {b : Bool} {Q R : α → Bool → List Bus → Prop} (h : wd d b Q)
    (i : ∀ a b l, Q a b l → R a b l) : wd d b R := wp_mono h fun x l => i x.1 x.2 l

theorem wd_lift {α : Type} {p : Prog α} {b : Bool} {Q : α → Bool → List Bus → Prop}
    (h : wp p fun a l => Q a b l) : wd (liftM p : Drv α) b Q :=
  wp_bind' (p := p) (f := fun a => .ret (a, b)) (wp_mono h fun a l hq => wp_ret (by simpa using hq))

theorem wd_set {b c : Bool} {Q : PUnit → Bool → List Bus → Prop} (h : Q () c []) : wd (set c : Drv PUnit) b Q :=
  wp_ret h

theorem wd_exec {α : Type} {d : Drv α} {b : Bool} {Q : α → Bool → List Bus → Prop} (h : wd d b Q) {tr : Trace}
    {x : α × Bool} (e : Exec (d b) tr x) : ∃ l, bus tr = some l ∧ Q x.1 x.2 (quiet l) := h.2 tr x e

/-- The wake-up of a chip the driver believes to be asleep. -/
inductive Wake : Bool → List Bus → Prop where
  | awake : Wake false []
  | asleep {m1 m2 : Bytes} : m1.length = 2 → m2.length = 2 → Wake true [.frame [0xc0, 0] m1, .frame [0x80, 0] m2]

theorem wd_checkDevice {b : Bool} {Q : Unit → Bool → List Bus → Prop} (h : ∀ pre, Wake b pre → Q () false pre) :
    wd checkDevice b Q := by
  unfold checkDevice
  refine wd_bind (wp_ret ?_)
  cases b with
  | false =>
    exact wd_lift (wp_waitBusy (by simpa using h [] .awake))
  | true =>
    refine wd_bind (wd_lift (wp_frame fun m1 h1 => wd_bind (wd_lift (wp_waitBusy
      (wd_bind (wd_lift (wp_frame fun m2 h2 => wd_bind (wd_set ?_))))))))
    exact wd_lift (wp_waitBusy (by simpa using h _ (.asleep h1 h2)))

theorem wd_transfer {mosi : Bytes} {b : Bool} {Q : Bytes → Bool → List Bus → Prop}
    (h : ∀ pre miso, Wake b pre → miso.length = mosi.length → Q miso false (pre ++ [.frame mosi miso])) :
    wd (transfer mosi) b Q :=
  wd_bind (wd_checkDevice fun pre hp => wd_lift (wp_frame fun miso hm => h pre miso hp hm))

theorem wd_writeCommand {c : Byte} {buf : Bytes} {b : Bool} {Q : Unit → Bool → List Bus → Prop}
    (h : ∀ pre miso, Wake b pre → miso.length = buf.length + 1 → Q () false (pre ++ [.frame (c :: buf) miso])) :
    wd (writeCommand c buf) b Q :=
  wd_bind (wd_transfer fun pre miso hp hm => wd_pure (by simpa using h pre miso hp hm))

theorem wd_writeRegister {a : U16} {v : Byte} {b : Bool} {Q : Unit → Bool → List Bus → Prop}
    (h : ∀ pre miso, Wake b pre → miso.length = 4 → Q () false (pre ++ [.frame [0x0d, hi a, lo a, v] miso])) :
    wd (writeRegister a v) b Q :=
  wd_bind (wd_transfer fun pre miso hp hm => wd_pure (by simpa using h pre miso hp hm))

theorem wd_writeRegisters {a : U16} {v : Bytes} {b : Bool} {Q : Unit → Bool → List Bus → Prop}
    (h : ∀ pre miso, Wake b pre → miso.length = v.length + 3 → Q () false (pre ++ [.frame (0x0d :: hi a :: lo a :: v) miso])) :
    wd (writeRegisters a v) b Q :=
  wd_bind (wd_transfer fun pre miso hp hm => wd_pure (by simpa using h pre miso hp hm))

theorem wd_writeBuffer {o : Byte} {v : Bytes} {b : Bool} {Q : Unit → Bool → List Bus → Prop}
    (h : ∀ pre miso, Wake b pre → miso.length = v.length + 2 → Q () false (pre ++ [.frame (0x0e :: o :: v) miso])) :
    wd (writeBuffer o v) b Q :=
  wd_bind (wd_transfer fun pre miso hp hm => wd_pure (by simpa using h pre miso hp hm))

theorem wd_readRegister {a : U16} {b : Bool} {Q : Byte → Bool → List Bus → Prop}
    (h : ∀ pre m0 m1 m2 m3 v, Wake b pre →
      Q v false (pre ++ [.frame [0x1d, hi a, lo a, 0xff, 0xff] [m0, m1, m2, m3, v]])) :
    wd (readRegister a) b Q := by
  refine wd_bind (wd_transfer fun pre miso hp hm => ?_)
  match miso, hm with
  | [m0, m1, m2, m3, v], _ => exact wd_pure (by simpa using h pre m0 m1 m2 m3 v hp)

theorem wd_readCommand {c : Byte} {n : Nat} {b : Bool} {Q : Bytes → Bool → List Bus → Prop}
    (h : ∀ pre m0 m1 vs, Wake b pre → vs.length = n →
      Q vs false (pre ++ [.frame (c :: 0xff :: List.replicate n 0xff) (m0 :: m1 :: vs)])) :
    wd (readCommand c n) b Q := by
  refine wd_bind (wd_transfer fun pre miso hp hm => ?_)
  match miso, hm with
  | m0 :: m1 :: vs, hm =>
    refine wd_pure ?_
    have := h pre m0 m1 vs hp (by simpa using hm)
    simpa using this

theorem wd_readRegisters {a : U16} {n : Nat} {b : Bool} {Q : Bytes → Bool → List Bus → Prop}
    (h : ∀ pre m0 m1 m2 m3 vs, Wake b pre → vs.length = n →
      Q vs false (pre ++ [.frame (0x1d :: hi a :: lo a :: 0xff :: List.replicate n 0xff) (m0 :: m1 :: m2 :: m3 :: vs)])) :
    wd (readRegisters a n) b Q := by
  refine wd_bind (wd_transfer fun pre miso hp hm => ?_)
  match miso, hm with
  | m0 :: m1 :: m2 :: m3 :: vs, hm =>
    refine wd_pure ?_
    have := h pre m0 m1 m2 m3 vs hp (by simpa using hm)
    simpa using this

theorem wake_false {pre : List Bus} (h : Wake false pre) : pre = [] := by cases h; rfl

/-! ## The functions of the driver -/

theorem wd_setupTcxo {v : Byte} {t : U32} {Q : Unit → Bool → List Bus → Prop}
    (h : ∀ m1 m2, Q () false [.frame [0x97, v, ((t <<< 6) >>> 16).setWidth 8, ((t <<< 6) >>> 8).setWidth 8, (t <<< 6).setWidth 8] m1,
      .frame [0x0d, 0x09, 0x11, 0] m2]) : wd (setupTcxo v t) false Q := by
  refine wd_bind (wd_writeCommand fun pre m1 hp _ => wd_writeRegister fun pre' m2 hp' _ => ?_)
  rw [wake_false hp, wake_false hp']
  exact h m1 m2

theorem wd_setPacketParams {p : PktParams} {len : Byte} {b : Bool} {Q : Unit → Bool → List Bus → Prop}
    (h : ∀ pre m0 m1 m2 m3 v n1 n2, Wake b pre → Q () false (pre ++
      [.frame [0x1d, 0x07, 0x36, 0xff, 0xff] [m0, m1, m2, m3, v],
       .frame [0x0d, 0x07, 0x36, if p.invertedIq then v &&& ~~~(0x04 : Byte) else v ||| 0x04] n1,
       .frame [0x8c, hi p.preambleLen, lo p.preambleLen, if p.implicitHeader then 0x01 else 0x00, len,
         if p.crcOn then 0x01 else 0x00, if p.invertedIq then 0x01 else 0x00] n2])) :
    wd (setPacketParams p len) b Q := by
  refine wd_bind (wd_readRegister fun pre m0 m1 m2 m3 v hp => wd_bind (wd_writeRegister fun q1 n1 h1 _ =>
    wd_writeCommand fun q2 n2 h2 _ => ?_))
  rw [wake_false h1, wake_false h2]
  simpa [show hi 1846#16 = 7#8 from rfl, show lo 1846#16 = 54#8 from rfl] using h pre m0 m1 m2 m3 v n1 n2 hp

theorem wd_sleep {hal : Hal} {b : Bool} {Q : Unit → Bool → List Bus → Prop}
    (h : ∀ pre m r r', Wake b pre → Q () true (pre ++ [.frame [0x84, 0x04] m] ++
      (if hal.ioDeinit then [.other .ioDeinit r] else []) ++ [.other (.delay 1000) r'])) : wd (sleep hal) b Q := by
  refine wd_bind (wd_writeCommand fun pre m hp _ => wd_bind (wd_lift (wp_opt (by trivial) fun r => wd_bind (wd_lift
    (wp_do (by trivial) fun r' => wd_set ?_)))))
  simpa using h pre m r r' hp

theorem wd_setPublicNetwork {p b : Bool} {Q : Unit → Bool → List Bus → Prop}
    (h : ∀ pre m, Wake b pre → Q () false (pre ++ [.frame ([0x0d, 0x07, 0x40] ++ if p then [0x34, 0x44] else [0x14, 0x24]) m])) :
    wd (setPublicNetwork p) b Q := wd_writeRegisters fun pre m hp _ => by
    simpa [show hi 1856#16 = 7#8 from rfl, show lo 1856#16 = 64#8 from rfl] using h pre m hp

/-- What `init` does up to the check for device errors `x`, `y`. -/
def initHead (hal : Hal) (o : Opts) (r1 r2 r3 r4 r5 : Byte) (w1 w2 c1 c2 t1 t2 : Bytes) (m0 m1 x y : Byte) : List Bus :=
  [.other (.reset true) r1, .other (.delay 1000) r2, .other (.reset false) r3, .other (.delay 20000) r4] ++
    (if hal.ioDeinit then [.other .ioDeinit r5] else []) ++
    [.frame [0xc0, 0] w1, .frame [0x80, 0] w2, .frame [0x07, 0, 0] c1] ++
    (if o.useTcxo then [.frame [0x97, o.tcxoVoltage, (((o.tcxoTimeout.setWidth 32 : U32) <<< 6) >>> 16).setWidth 8,
      (((o.tcxoTimeout.setWidth 32 : U32) <<< 6) >>> 8).setWidth 8, ((o.tcxoTimeout.setWidth 32 : U32) <<< 6).setWidth 8] t1,
      .frame [0x0d, 0x09, 0x11, 0] t2] else []) ++
    [.frame [0x89, 0x7f] c2, .frame [0x17, 0xff, 0xff, 0xff] [m0, m1, x, y]]

/-- The rest of a successful `init`. -/
def initTail (hal : Hal) (o : Opts) (r6 r7 : Byte) (c3 c4 w3 w4 c5 c6 c7 : Bytes) : List Bus :=
  [.frame [0x96, if o.useDcdc then 0x01 else 0x00] c3, .frame [0x84, 0x04] c4] ++
    (if hal.ioDeinit then [.other .ioDeinit r6] else []) ++
    [.other (.delay 1000) r7, .frame [0xc0, 0] w3, .frame [0x80, 0] w4, .frame [0x8a, 0x01] c5,
      .frame [0x0d, 0x07, 0x40, 0x34, 0x44] c6, .frame [0x08, 0x02, 0x43, 0x02, 0x43, 0, 0, 0, 0] c7]

theorem wd_init {hal : Hal} {o : Opts} {b : Bool} {Q : Bool → Bool → List Bus → Prop}
    (hf : ∀ r1 r2 r3 r4 r5 w1 w2 c1 c2 t1 t2 m0 m1 x y, ¬(x = 0 ∧ y = 0) →
      Q false false (initHead hal o r1 r2 r3 r4 r5 w1 w2 c1 c2 t1 t2 m0 m1 x y))
    (ht : ∀ r1 r2 r3 r4 r5 w1 w2 c1 c2 t1 t2 m0 m1 r6 r7 c3 c4 w3 w4 c5 c6 c7,
      Q true false (initHead hal o r1 r2 r3 r4 r5 w1 w2 c1 c2 t1 t2 m0 m1 0 0 ++
        initTail hal o r6 r7 c3 c4 w3 w4 c5 c6 c7)) :
    wd (init hal o) b Q := by
  unfold init
  refine wd_bind (wd_lift (wp_do (by trivial) fun r1 => wd_bind (wd_lift (wp_do (by trivial) fun r2 => ?_))))
  refine wd_bind (wd_lift (wp_do (by trivial) fun r3 => wd_bind (wd_lift (wp_do (by trivial) fun r4 => ?_))))
  refine wd_bind (wd_lift (wp_opt (by trivial) fun r5 => wd_bind (wd_set ?_)))
  refine wd_bind (wd_writeCommand fun pre c1 hp _ => ?_)
  cases hp with
  | @asleep w1 w2 _ _ =>
  suffices key : ∀ t1 t2, wd (do
      writeCommand 0x89 [0x7f]
      let opError ← readCommand 0x17 2
      if opError.any (· ≠ 0) then pure false
      else do
        writeCommand 0x96 [if o.useDcdc then 0x01 else 0x00]
        sleep hal
        writeCommand 0x8a [0x01]
        setPublicNetwork true
        writeCommand 0x08 [0x02, 0x43, 0x02, 0x43, 0x00, 0x00, 0x00, 0x00]
        pure true) false fun ok b' l => Q ok b' ([.other (.reset true) r1, .other (.delay 1000) r2, .other (.reset false) r3, .other (.delay 20000) r4] ++
    (if hal.ioDeinit then [.other .ioDeinit r5] else []) ++
    [.frame [0xc0, 0] w1, .frame [0x80, 0] w2, .frame [0x07, 0, 0] c1] ++
    (if o.useTcxo then [.frame [0x97, o.tcxoVoltage, (((o.tcxoTimeout.setWidth 32 : U32) <<< 6) >>> 16).setWidth 8,
      (((o.tcxoTimeout.setWidth 32 : U32) <<< 6) >>> 8).setWidth 8, ((o.tcxoTimeout.setWidth 32 : U32) <<< 6).setWidth 8] t1,
      .frame [0x0d, 0x09, 0x11, 0] t2] else []) ++ l) by
    by_cases ht : o.useTcxo = true
    · simp only [if_pos ht] at key ⊢
      refine wd_bind (wd_setupTcxo fun t1 t2 => ?_)
      refine wd_mono (key t1 t2) fun ok b' l hq => ?_
      simpa using hq
    · simp only [if_neg ht] at key ⊢
      refine wd_mono (key [] []) fun ok b' l hq => ?_
      simpa using hq
  intro t1 t2
  refine wd_bind (wd_writeCommand fun q2 c2 hp2 _ => wd_bind (wd_readCommand fun q3 m0 m1 vs hp3 hv => ?_))
  rw [wake_false hp2, wake_false hp3]
  match vs, hv with
  | [x, y], _ =>
    by_cases he : x = 0 ∧ y = 0
    · obtain ⟨rfl, rfl⟩ := he
      rw [if_neg (by decide)]
      refine wd_bind (wd_writeCommand fun q4 c3 hp4 _ => wd_bind (wd_sleep fun q5 c4 r6 r7 hp5 => ?_))
      rw [wake_false hp4, wake_false hp5]
      refine wd_bind (wd_writeCommand fun q6 c5 hp6 _ => wd_bind (wd_setPublicNetwork fun q7 c6 hp7 => ?_))
      refine wd_bind (wd_writeCommand fun q8 c7 hp8 _ => wd_pure ?_)
      rw [wake_false hp7, wake_false hp8]
      cases hp6 with
      | @asleep w3 w4 _ _ =>
      have := ht r1 r2 r3 r4 r5 w1 w2 c1 c2 t1 t2 m0 m1 r6 r7 c3 c4 w3 w4 c5 c6 c7
      simpa [initHead, initTail, List.append_assoc] using this
    · have hany : ([x, y].any (· ≠ 0)) = true := by
        simp only [List.any_cons, List.any_nil, Bool.or_false, Bool.or_eq_true, decide_eq_true_eq]
        by_cases hx : x = 0
        · exact .inr fun hy => he ⟨hx, hy⟩
        · exact .inl hx
      rw [if_pos hany]
      refine wd_pure ?_
      have := hf r1 r2 r3 r4 r5 w1 w2 c1 c2 t1 t2 m0 m1 x y he
      simpa [initHead, List.append_assoc] using this

theorem wd_setFreq {f : U32} {b : Bool} {Q : Unit → Bool → List Bus → Prop}
    (h : ∀ pre m1 m2, Wake b pre → Q () false (pre ++ [.frame [0x98, 0xd7, 0xdb] m1,
      .frame [0x86, BitVec.ofNat 8 (f.toNat * 2 ^ 25 / 32000000 / 2 ^ 24), BitVec.ofNat 8 (f.toNat * 2 ^ 25 / 32000000 / 2 ^ 16),
        BitVec.ofNat 8 (f.toNat * 2 ^ 25 / 32000000 / 2 ^ 8), BitVec.ofNat 8 (f.toNat * 2 ^ 25 / 32000000)] m2])) :
    wd (setFreq f) b Q := by
  refine wd_bind (wd_writeCommand fun pre m1 hp _ => wd_writeCommand fun q m2 hq _ => ?_)
  rw [wake_false hq]
  have := h pre m1 m2 hp
  simp only [List.append_assoc, List.nil_append, List.singleton_append]
  exact this

theorem setPower_out {o : Opts} {p : BitVec 8}
    (h : ¬(if o.isHp then -9 ≤ p.toInt ∧ p.toInt ≤ 22 else -17 ≤ p.toInt ∧ p.toInt ≤ 15)) :
    setPower o p = pure false := by
  unfold setPower
  cases ho : o.isHp
  · rw [ho] at h
    simp only [Bool.false_eq_true, if_false] at h
    rw [if_pos rfl, if_pos (by omega)]
  · rw [ho] at h
    simp only [if_true] at h
    rw [if_neg (by simp), if_pos (by omega)]

theorem wd_setPower_lp {o : Opts} {p : BitVec 8} {b : Bool} (ho : o.isHp = false) (hp : -17 ≤ p.toInt ∧ p.toInt ≤ 15)
    {Q : Bool → Bool → List Bus → Prop}
    (h : ∀ pre m1 m2 m3, Wake b pre → Q true false (pre ++ [.frame [0x0d, 0x08, 0xe7, 0x18] m1,
      .frame [0x95, if p.toInt = 15 then 0x06 else 0x04, 0, 1, 1] m2,
      .frame [0x8e, if p.toInt = 15 then 14 else p, 2] m3])) : wd (setPower o p) b Q := by
  unfold setPower
  rw [if_pos ho, if_neg (by omega)]
  by_cases h15 : p.toInt = 15
  · simp only [if_pos h15] at h ⊢
    refine wd_bind (wd_writeRegister fun pre m1 hp _ => wd_bind (wd_writeCommand fun q2 m2 h2 _ => wd_bind
      (wd_writeCommand fun q3 m3 h3 _ => wd_pure ?_)))
    rw [wake_false h2, wake_false h3]
    simpa [show hi 2279#16 = 8#8 from rfl, show lo 2279#16 = 231#8 from rfl] using h pre m1 m2 m3 hp
  · simp only [if_neg h15] at h ⊢
    refine wd_bind (wd_writeRegister fun pre m1 hp _ => wd_bind (wd_writeCommand fun q2 m2 h2 _ => wd_bind
      (wd_writeCommand fun q3 m3 h3 _ => wd_pure ?_)))
    rw [wake_false h2, wake_false h3]
    simpa [show hi 2279#16 = 8#8 from rfl, show lo 2279#16 = 231#8 from rfl] using h pre m1 m2 m3 hp

theorem wd_setPower_hp {o : Opts} {p : BitVec 8} {b : Bool} (ho : o.isHp = true) (hp : -9 ≤ p.toInt ∧ p.toInt ≤ 22)
    {Q : Bool → Bool → List Bus → Prop}
    (h : ∀ pre a0 a1 a2 a3 v m0 m1 m2 m3, Wake b pre → Q true false (pre ++
      [.frame [0x1d, 0x08, 0xd8, 0xff, 0xff] [a0, a1, a2, a3, v], .frame [0x0d, 0x08, 0xd8, v ||| 0x1e] m0,
       .frame [0x0d, 0x08, 0xe7, 0x38] m1, .frame [0x95, 4, 7, 0, 1] m2, .frame [0x8e, p, 2] m3])) :
    wd (setPower o p) b Q := by
  unfold setPower
  rw [if_neg (by simp [ho]), if_neg (by omega)]
  refine wd_bind (wd_readRegister fun pre a0 a1 a2 a3 v hp => wd_bind (wd_writeRegister fun q0 m0 h0 _ => wd_bind
    (wd_writeRegister fun q1 m1 h1 _ => wd_bind (wd_writeCommand fun q2 m2 h2 _ => wd_bind
      (wd_writeCommand fun q3 m3 h3 _ => wd_pure ?_)))))
  rw [wake_false h0, wake_false h1, wake_false h2, wake_false h3]
  simpa [show hi 2279#16 = 8#8 from rfl, show lo 2279#16 = 231#8 from rfl, show hi 2264#16 = 8#8 from rfl,
    show lo 2264#16 = 216#8 from rfl] using h pre a0 a1 a2 a3 v m0 m1 m2 m3 hp

theorem wd_setup {hal : Hal} {p : PktParams} {b : Bool} {Q : Unit → Bool → List Bus → Prop}
    (h : ∀ pre m r, Wake b pre → Q () false (pre ++ [.frame [0x8b, sfTable p.sf, bwTable p.bw, crTable p.cr,
      if Sx127x.lowDr p.sf then 0x01 else 0x00] m] ++ if hal.ioInit then [.other .ioInit r] else [])) :
    wd (setup hal p) b Q :=
  wd_bind (wd_writeCommand fun pre m hp _ => wd_lift (wp_opt (by trivial) fun r => by simpa using h pre m r hp))

/-- The frames of `set_packet_params`. -/
def pktFrames (p : PktParams) (len : Byte) (a0 a1 a2 a3 v : Byte) (n1 n2 : Bytes) : List Bus :=
  [.frame [0x1d, 0x07, 0x36, 0xff, 0xff] [a0, a1, a2, a3, v],
   .frame [0x0d, 0x07, 0x36, if p.invertedIq then v &&& ~~~(0x04 : Byte) else v ||| 0x04] n1,
   .frame [0x8c, hi p.preambleLen, lo p.preambleLen, if p.implicitHeader then 0x01 else 0x00, len,
     if p.crcOn then 0x01 else 0x00, if p.invertedIq then 0x01 else 0x00] n2]

theorem wd_tx {hal : Hal} {p : PktParams} {buf : Bytes} {b : Bool} {Q : Unit → Bool → List Bus → Prop}
    (h : ∀ pre a0 a1 a2 a3 v n1 n2 m1 m2 m3 r, Wake b pre → Q () false (pre ++
      pktFrames p (BitVec.ofNat 8 buf.length) a0 a1 a2 a3 v n1 n2 ++
      [.frame [0x8f, 0, 0] m1, .frame (0x0e :: 0 :: buf) m2] ++ (if hal.antSw then [.other (.antSw false) r] else []) ++
      [.frame [0x83, 0, 0, 0] m3])) : wd (tx hal p buf) b Q := by
  refine wd_bind (wd_setPacketParams fun pre a0 a1 a2 a3 v n1 n2 hp => wd_bind (wd_writeCommand fun q1 m1 h1 _ => wd_bind
    (wd_writeBuffer fun q2 m2 h2 _ => wd_bind (wd_lift (wp_opt (by trivial) fun r => wd_writeCommand fun q3 m3 h3 _ => ?_)))))
  rw [wake_false h1, wake_false h2, wake_false h3]
  simpa [pktFrames] using h pre a0 a1 a2 a3 v n1 n2 m1 m2 m3 r hp

/-- The timeout argument of SetRx. -/
def rxTicks (timeout : U32) : U32 := if timeout ≠ 0 ∧ timeout ≠ 0xffffff then timeout <<< 6 else timeout

theorem wd_rx {hal : Hal} {p : PktParams} {len : Byte} {symb : U16} {tmo : U32} {b : Bool} {Q : Unit → Bool → List Bus → Prop}
    (h : ∀ pre a0 a1 a2 a3 v n1 n2 m1 m2 m3 r, Wake b pre → Q () false (pre ++ pktFrames p len a0 a1 a2 a3 v n1 n2 ++
      [.frame [0xa0, lo symb] m1, .frame [0x8f, 0, 0] m2] ++ (if hal.antSw then [.other (.antSw true) r] else []) ++
      [.frame [0x82, ((rxTicks tmo) >>> 16).setWidth 8, ((rxTicks tmo) >>> 8).setWidth 8, (rxTicks tmo).setWidth 8] m3])) :
    wd (rx hal p len symb tmo) b Q := by
  refine wd_bind (wd_setPacketParams fun pre a0 a1 a2 a3 v n1 n2 hp => wd_bind (wd_writeCommand fun q1 m1 h1 _ => wd_bind
    (wd_writeCommand fun q2 m2 h2 _ => wd_bind (wd_lift (wp_opt (by trivial) fun r => wd_writeCommand fun q3 m3 h3 _ => ?_)))))
  rw [wake_false h1, wake_false h2, wake_false h3]
  simpa [pktFrames, rxTicks] using h pre a0 a1 a2 a3 v n1 n2 m1 m2 m3 r hp

/-! ## Reading a packet -/

theorem exec_readLoop126 : ∀ (n i : Nat) (buf : Bytes), i + n ≤ buf.length →
    (readLoop n i buf).Safe ∧ ∀ tr b, Exec (readLoop n i buf) tr b →
      ∃ vs : Bytes, vs.length = n ∧ b = Sx127x.over buf i vs ∧ tr = vs.map fun v => (.xfer 0xff, v)
  | 0, i, buf, _ => ⟨trivial, fun tr b e => by
      obtain ⟨rfl, rfl⟩ := exec_ret e
      exact ⟨[], rfl, by simp [Sx127x.over], rfl⟩⟩
  | n + 1, i, buf, h => by
    have st : ∀ v, Sx127x.store buf i v = Prog.ret (buf.set i v) := fun v => by
      unfold Sx127x.store; rw [if_pos (by omega)]; rfl
    constructor
    · intro v
      show (Prog.bind (Sx127x.store buf i v) _).Safe
      rw [st]
      exact (exec_readLoop126 n (i + 1) _ (by simp; omega)).1
    · intro tr b e
      cases e with
      | @call _ _ v tr _ e =>
        have e : Exec (Prog.bind (Sx127x.store buf i v) fun buf => readLoop n (i + 1) buf) tr b := e
        rw [st] at e
        obtain ⟨vs, hl, rfl, rfl⟩ := (exec_readLoop126 n (i + 1) _ (by simp; omega)).2 _ _ e
        exact ⟨v :: vs, by simp [hl], Sx127x.over_cons (by omega), rfl⟩

theorem bus_readBuf {o : Byte} {buf : Bytes} {n : Nat} (h : n ≤ buf.length) {tr : Trace} {b : Bytes}
    (e : Exec (readBuf o buf n) tr b) : ∃ m0 m1 m2 vs, vs.length = n ∧ b = vs ++ buf.drop n ∧
      bus tr = some [.frame (0x1e :: o :: 0xff :: List.replicate n 0xff) (m0 :: m1 :: m2 :: vs)] := by
  have key := exec_readLoop126 n 0 buf (by omega)
  cases e with
  | call e => cases e with
    | @call _ _ m0 tr _ e => cases e with
      | @call _ _ m1 tr _ e => cases e with
        | @call _ _ m2 tr _ e =>
          have e : Exec (Prog.bind (readLoop n 0 buf) fun b => Prog.bind (do_ (.select false)) fun _ => pure b) tr b := e
          obtain ⟨t1, t2, b', rfl, e1, e2⟩ := exec_bind e
          obtain ⟨vs, hl, rfl, rfl⟩ := key.2 _ _ e1
          cases e2 with
          | call e2 =>
            obtain ⟨rfl, rfl⟩ := exec_ret e2
            refine ⟨m0, m1, m2, vs, hl, by simp [Sx127x.over, hl], ?_⟩
            simp only [bus, group, List.nil_append, List.cons_append]
            rw [Sx127x.group_reads, hl]
            rfl

theorem wp_readBuf {o : Byte} {buf : Bytes} {n : Nat} (h : n ≤ buf.length) {Q : Bytes → List Bus → Prop}
    (hq : ∀ m0 m1 m2 vs, vs.length = n → Q (vs ++ buf.drop n)
      [.frame (0x1e :: o :: 0xff :: List.replicate n 0xff) (m0 :: m1 :: m2 :: vs)]) : wp (readBuf o buf n) Q := by
  have key := exec_readLoop126 n 0 buf (by omega)
  refine ⟨?_, fun tr b e => ?_⟩
  · intro r r' r2 r3
    show (Prog.bind (readLoop n 0 buf) fun b => Prog.bind (do_ (.select false)) fun _ => pure b).Safe
    exact safe_bind key.1 fun _ _ _ _ => trivial
  · obtain ⟨m0, m1, m2, vs, hl, rfl, hb⟩ := bus_readBuf h e
    exact ⟨_, hb, hq m0 m1 m2 vs hl⟩

theorem wd_readBuffer {o : Byte} {buf : Bytes} {n : Nat} (h : n ≤ buf.length) {b : Bool} {Q : Bytes → Bool → List Bus → Prop}
    (hq : ∀ pre m0 m1 m2 vs, Wake b pre → vs.length = n → Q (vs ++ buf.drop n) false (pre ++
      [.frame (0x1e :: o :: 0xff :: List.replicate n 0xff) (m0 :: m1 :: m2 :: vs)])) : wd (readBuffer o buf n) b Q := by
  exact wd_bind (wd_checkDevice fun pre hp => wd_lift (wp_readBuf h fun m0 m1 m2 vs hl => hq pre m0 m1 m2 vs hp hl))

theorem wd_readPacket {buf : Bytes} {b : Bool} {Q : Sx127x.PktOut → Bool → List Bus → Prop}
    (h : ∀ (pre : List Bus) (a0 a1 n off b0 b1 b2 : Byte) (vs : Bytes) (c0 c1 rssi snr sig : Byte), Wake b pre →
      vs.length = min n.toNat buf.length →
      Q ⟨vs ++ buf.drop vs.length, vs.length, rssiOf rssi, Sx127x.snrOf snr⟩ false (pre ++
        [.frame [0x13, 0xff, 0xff, 0xff] [a0, a1, n, off],
         .frame (0x1e :: off :: 0xff :: List.replicate vs.length 0xff) (b0 :: b1 :: b2 :: vs),
         .frame [0x14, 0xff, 0xff, 0xff, 0xff] [c0, c1, rssi, snr, sig]])) : wd (readPacket buf) b Q := by
  refine wd_bind (wd_readCommand fun pre a0 a1 vs hp hv => ?_)
  match vs, hv with
  | [n, off], _ =>
    have em : (if buf.length > n.toNat then n.toNat else buf.length) = min n.toNat buf.length := by split <;> omega
    simp only [em]
    refine wd_bind (wd_readBuffer (by omega) fun q1 b0 b1 b2 vs h1 hv => wd_bind (wd_readCommand fun q2 c0 c1 ws h2 hw => ?_))
    rw [wake_false h1, wake_false h2]
    match ws, hw with
    | [rssi, snr, sig], _ =>
      refine wd_pure ?_
      have := h pre a0 a1 n off b0 b1 b2 vs c0 c1 rssi snr sig hp hv
      rw [hv] at this
      simpa using this

theorem wd_rand {hal : Hal} {p : PktParams} {b : Bool} {Q : U32 → Bool → List Bus → Prop}
    (h : ∀ pre a0 a1 a2 a3 v n1 n2 m1 m2 m3 r d0 d1 d2 d3 x0 x1 x2 x3 m4 r1 r2, Wake b pre → Q (or32 x0 x1 x2 x3) true
      (pre ++ pktFrames p 0xff a0 a1 a2 a3 v n1 n2 ++
      [.frame [0xa0, 0] m1, .frame [0x8f, 0, 0] m2] ++ (if hal.antSw then [.other (.antSw true) r] else []) ++
      [.frame [0x82, 0xff, 0xff, 0xff] m3, .frame [0x1d, 0x08, 0x19, 0xff, 0xff, 0xff, 0xff, 0xff] [d0, d1, d2, d3, x0, x1, x2, x3],
       .frame [0x84, 0x04] m4] ++ (if hal.ioDeinit then [.other .ioDeinit r1] else []) ++ [.other (.delay 1000) r2])) :
    wd (rand hal p) b Q := by
  refine wd_bind (wd_rx fun pre a0 a1 a2 a3 v n1 n2 m1 m2 m3 r hp => wd_bind (wd_readRegisters fun q1 d0 d1 d2 d3 vs h1 hv => ?_))
  match vs, hv with
  | [x0, x1, x2, x3], _ =>
    refine wd_bind (wd_sleep fun q2 m4 r1 r2 h2 => wd_pure ?_)
    rw [wake_false h1, wake_false h2]
    have := h pre a0 a1 a2 a3 v n1 n2 m1 m2 m3 r d0 d1 d2 d3 x0 x1 x2 x3 m4 r1 r2 hp
    simpa [show hi 2073#16 = 8#8 from rfl, show lo 2073#16 = 25#8 from rfl, show lo 0#16 = 0#8 from rfl,
      show rxTicks 16777215#32 = 0xffffff from rfl, List.replicate_succ] using this

theorem wd_irqHandler {hd b : Bool} {Q : Byte → Bool → List Bus → Prop}
    (h : ∀ pre a0 a1 b1 b0 m r res, Wake b pre → maskEvents res = some (flags126 b1 b0) →
      Q res false (pre ++ [.frame [0x12, 0xff, 0xff, 0xff] [a0, a1, b1, b0], .frame [0x02, b1, b0] m] ++
        if hd then [.other (.handler res) r] else [])) : wd (irqHandler hd) b Q := by
  refine wd_bind (wd_readCommand fun pre a0 a1 vs hp hv => ?_)
  match vs, hv with
  | [b1, b0], _ =>
    refine wd_bind (wd_writeCommand fun q m hq _ => wd_bind (wd_lift (wp_opt (by trivial) fun r => wd_pure ?_)))
    rw [wake_false hq]
    have hbit : ∀ (k : Nat), (((b1.setWidth 16 <<< 8) ||| b0.setWidth 16 : U16)).getLsbD k =
        if k < 8 then b0.getLsbD k else decide (k < 16) && b1.getLsbD (k - 8) := by
      intro k
      simp only [BitVec.getLsbD_or, BitVec.getLsbD_shiftLeft, BitVec.getLsbD_setWidth]
      by_cases h8 : k < 8
      · simp [h8, show k < 16 by omega]
      · simp only [h8, if_false, decide_false, Bool.not_false, Bool.and_true]
        by_cases h16 : k < 16
        · simp [h16, show k - 8 < 16 by omega, BitVec.getLsbD_of_ge b0 k (by omega)]
        · simp [h16]
    have key : ∀ (fl : U16), fl = ((b1.setWidth 16 <<< 8) ||| b0.setWidth 16 : U16) →
        maskEvents ((((0 ||| if fl &&& 0x0001 ≠ 0 then 0x04 else 0) ||| if fl &&& 0x0002 ≠ 0 then 0x02 else 0)
          ||| if fl &&& 0x0200 ≠ 0 then 0x01 else 0) ||| if fl &&& 0x0040 ≠ 0 then 0x08 else 0) = some (flags126 b1 b0) := by
      intro fl hfl
      have tb : ∀ (x : U16) (k : Nat), k < 16 → (x &&& BitVec.twoPow 16 k ≠ 0 ↔ x.getLsbD k = true) := by
        intro x k hk
        rw [BitVec.and_twoPow]
        constructor
        · intro h
          cases hx : x.getLsbD k
          · rw [hx] at h; exact (h rfl).elim
          · rfl
        · intro h
          rw [if_pos h]
          intro hc
          have := congrArg (·.getLsbD k) hc
          simp [hk] at this
      have e0 := tb fl 0 (by decide)
      have e1 := tb fl 1 (by decide)
      have e9 := tb fl 9 (by decide)
      have e6 := tb fl 6 (by decide)
      rw [show BitVec.twoPow 16 0 = 0x0001 from rfl] at e0
      rw [show BitVec.twoPow 16 1 = 0x0002 from rfl] at e1
      rw [show BitVec.twoPow 16 9 = 0x0200 from rfl] at e9
      rw [show BitVec.twoPow 16 6 = 0x0040 from rfl] at e6
      rw [hfl, hbit] at e0 e1 e9 e6
      rw [← hfl] at e0 e1 e9 e6
      rw [if_pos (by decide)] at e0 e1 e6
      rw [if_neg (by decide), show (decide (9 < 16) && b1.getLsbD (9 - 8)) = b1.getLsbD 1 from rfl] at e9
      simp only [e0, e1, e9, e6]
      have n0 : ∀ x : Byte, x.toNat % 2 = 1 ↔ x.getLsbD 0 = true := by decide +kernel
      have n1 : ∀ x : Byte, x.toNat / 2 % 2 = 1 ↔ x.getLsbD 1 = true := by decide +kernel
      have n6 : ∀ x : Byte, x.toNat / 64 % 2 = 1 ↔ x.getLsbD 6 = true := by decide +kernel
      simp only [flags126, n0, n1, n6]
      cases b0.getLsbD 0 <;> cases b0.getLsbD 1 <;> cases b0.getLsbD 6 <;> cases b1.getLsbD 1 <;> decide
    have := h pre a0 a1 b1 b0 m r _ hp (key _ rfl)
    simpa using this

/-! ## Busy polling and sleep -/

/-- Like `wd`, over all executions, with the BUSY polls left in. -/
def wx {α : Type} (d : Drv α) (b : Bool) (Q : Bool → List Bus → Prop) : Prop :=
  ∀ tr x, Exec (d b) tr x → ∃ l, bus tr = some l ∧ Q x.2 l

theorem wx_pure {α : Type} {a : α} {b : Bool} {Q : Bool → List Bus → Prop} (h : Q b []) : wx (pure a : Drv α) b Q := by
  intro tr x e
  obtain ⟨rfl, rfl⟩ := exec_ret e
  exact ⟨[], rfl, h⟩

theorem wx_set {b c : Bool} {Q : Bool → List Bus → Prop} (h : Q c []) : wx (set c : Drv PUnit) b Q := by
  intro tr x e
  obtain ⟨rfl, rfl⟩ := exec_ret e
  exact ⟨[], rfl, h⟩

theorem wx_bind {α β : Type} {d : Drv α} {f : α → Drv β} {b : Bool} {Q : Bool → List Bus → Prop}
    (h : wx d b fun b' l => ∀ a, wx (f a) b' fun b'' l' => Q b'' (l ++ l')) : wx (d >>= f) b Q := by
  intro tr x e
  obtain ⟨t1, t2, y, rfl, e1, e2⟩ := exec_bind (p := d b) (f := fun (x : α × Bool) => f x.1 x.2) e
  obtain ⟨l1, hb1, h1⟩ := h _ _ e1
  obtain ⟨l2, hb2, h2⟩ := h1 y.1 _ _ e2
  exact ⟨l1 ++ l2, bus_append hb1 hb2, h2⟩

theorem wx_mono {α : Type} {d : Drv α} {b : Bool} {Q R : Bool → List Bus → Prop} (h : wx d b Q)
    (i : ∀ b l, Q b l → R b l) : wx d b R := fun tr x e =>
  let ⟨l, hb, hq⟩ := h tr x e
  ⟨l, hb, i _ _ hq⟩

theorem wx_lift {α : Type} {p : Prog α} {b : Bool} {Q : Bool → List Bus → Prop}
    (h : ∀ tr a, Exec p tr a → ∃ l, bus tr = some l ∧ Q b l) : wx (liftM p : Drv α) b Q := by
  intro tr x e
  obtain ⟨t1, t2, a, rfl, e1, e2⟩ := exec_bind (p := p) (f := fun a => .ret (a, b)) e
  obtain ⟨rfl, rfl⟩ := exec_ret e2
  rw [List.append_nil]
  exact h _ _ e1

theorem wx_do {c : Call} (hc : Plain c) {b : Bool} {Q : Bool → List Bus → Prop} (h : ∀ r, Q b [.other c r]) :
    wx (liftM (do_ c) : Drv Unit) b Q := by
  refine wx_lift fun tr a e => ?_
  cases e with
  | @call _ _ r tr _ e =>
    obtain ⟨rfl, rfl⟩ := exec_ret e
    exact ⟨[.other c r], by cases c <;> first | rfl | exact hc.elim, h r⟩

theorem wx_opt {c : Call} (hc : Plain c) {o b : Bool} {Q : Bool → List Bus → Prop}
    (h : ∀ r, Q b (if o then [.other c r] else [])) : wx (liftM (Prog.opt o c) : Drv Unit) b Q := by
  cases o with
  | true => exact wx_do hc (by simpa using h)
  | false =>
    refine wx_lift fun tr a e => ?_
    obtain ⟨rfl, rfl⟩ := exec_ret e
    exact ⟨[], rfl, by simpa using h 0⟩

/-- A frame holds no polls. -/
theorem wx_frame {mosi : Bytes} {b : Bool} {Q : Bool → List Bus → Prop} (h : ∀ miso, Q b [.frame mosi miso]) :
    wx (liftM (frame mosi) : Drv Bytes) b Q := by
  exact wx_lift fun tr a e => ⟨_, (bus_frame e).2, h a⟩

/-- The list of an `is_busy` loop. -/
def pollList (rs : Bytes) : List Bus := rs.map (.other .isBusy ·) ++ [.other .isBusy 0]

theorem wx_waitBusy {b : Bool} {Q : Bool → List Bus → Prop} (h : ∀ rs, Q b (pollList rs)) :
    wx (liftM waitBusy : Drv Unit) b Q := by
  refine wx_lift fun tr a e => ?_
  have key : ∀ (q : Prog Unit) (tr : Trace) (a : Unit), Exec q tr a → q = waitBusy →
      ∃ rs : Bytes, bus tr = some (pollList rs) := by
    intro q tr a e
    induction e with
    | ret => intro e; exact nomatch e
    | call => intro e; exact nomatch e
    | @busy k r tr a hr e ih =>
      intro hq
      obtain ⟨rs, hb⟩ := ih hq
      refine ⟨r :: rs, ?_⟩
      simp only [bus, group] at hb ⊢
      rw [hb]
      rfl
    | @ready k tr a e _ =>
      intro hq
      injection hq with hq
      subst hq
      obtain ⟨rfl, _⟩ := exec_ret e
      exact ⟨[], rfl⟩
  obtain ⟨rs, hb⟩ := key _ _ _ e rfl
  exact ⟨_, hb, h rs⟩

/-- The bus activity of the driver, step by step, between two values of `is_sleep`. -/
inductive Drive : Bool → List Bus → Bool → Prop where
  | nil (b : Bool) : Drive b [] b
  | poll {b b' : Bool} {r : Byte} {l : List Bus} : Drive b l b' → Drive b (.other .isBusy r :: l) b'
  | other {b b' : Bool} {c : Call} {r : Byte} {l : List Bus} : Plain c → (∀ x, c ≠ .reset x) → Drive b l b' →
      Drive b (.other c r :: l) b'
  | reset {b b' x : Bool} {r : Byte} {l : List Bus} : Drive true l b' → Drive b (.other (.reset x) r :: l) b'
  | wake {b' : Bool} {m : Bytes} {l : List Bus} : Drive false l b' → Drive true (.frame [0xc0, 0] m :: l) b'
  | cmd {b' : Bool} {c : Byte} {o m : Bytes} {l : List Bus} : c ≠ 0xc0 → c ≠ 0x84 → Drive false l b' →
      Drive false (.other .isBusy 0 :: .frame (c :: o) m :: l) b'
  | sleep {b' : Bool} {o m : Bytes} {l : List Bus} : Drive true l b' →
      Drive false (.other .isBusy 0 :: .frame (0x84 :: o) m :: l) b'

theorem drive_append {b b' b'' : Bool} {l l' : List Bus} (h : Drive b l b') (k : Drive b' l' b'') : Drive b (l ++ l') b'' := by
  induction h with
  | nil => exact k
  | poll _ ih => exact .poll (ih k)
  | other hc hr _ ih => exact .other hc hr (ih k)
  | reset _ ih => exact .reset (ih k)
  | wake _ ih => exact .wake (ih k)
  | cmd h1 h2 _ ih => exact .cmd h1 h2 (ih k)
  | sleep _ ih => exact .sleep (ih k)

theorem drive_polls {b : Bool} (rs : Bytes) {b' : Bool} {l : List Bus} (h : Drive b l b') :
    Drive b (rs.map (.other .isBusy ·) ++ l) b' := by
  induction rs with
  | nil => exact h
  | cons r rs ih => exact .poll ih

/-- A driver function all of whose executions follow `Drive`. -/
def Dr {α : Type} (d : Drv α) : Prop := ∀ b, wx d b fun b' l => Drive b l b'

theorem dr_pure {α : Type} (a : α) : Dr (pure a : Drv α) := fun b => wx_pure (.nil b)

theorem dr_bind {α β : Type} {d : Drv α} {f : α → Drv β} (h : Dr d) (k : ∀ a, Dr (f a)) : Dr (d >>= f) := fun b =>
  wx_bind (wx_mono (h b) fun _ _ h1 a => wx_mono (k a _) fun _ _ h2 => drive_append h1 h2)

theorem dr_fail {α : Type} (u : UB) : Dr (StateT.lift (.fail u) : Drv α) := fun b tr x e => by
  obtain ⟨t1, t2, a, rfl, e1, e2⟩ := exec_bind (p := .fail u) (f := fun a => .ret (a, b)) e
  exact nomatch e1

theorem dr_do {c : Call} (hc : Plain c) (hr : ∀ x, c ≠ .reset x) : Dr (liftM (do_ c) : Drv Unit) := fun b =>
  wx_do hc fun _ => .other hc hr (.nil b)

theorem dr_opt {c : Call} (hc : Plain c) (hr : ∀ x, c ≠ .reset x) (o : Bool) : Dr (liftM (Prog.opt o c) : Drv Unit) := fun b =>
  wx_opt hc fun _ => by
    cases o
    · exact .nil b
    · exact .other hc hr (.nil b)

/-- After `check_device` the chip is awake and was just seen ready. -/
theorem wx_checkDevice {b : Bool} {Q : Bool → List Bus → Prop}
    (h : ∀ pre, Drive b pre false → Q false (pre ++ [.other .isBusy 0])) : wx checkDevice b Q := by
  unfold checkDevice
  intro tr x e
  obtain ⟨t1, t2, y, rfl, e1, e2⟩ := exec_bind e
  obtain ⟨rfl, rfl⟩ := exec_ret e1
  rw [List.nil_append]
  refine (?_ : wx _ b Q) t2 x e2
  cases b with
  | false =>
    refine wx_waitBusy fun rs => ?_
    have := drive_polls rs (Drive.nil false)
    rw [List.append_nil] at this
    exact h _ this
  | true =>
    refine wx_bind (wx_frame fun m1 _ => wx_bind (wx_waitBusy fun rs _ => wx_bind (wx_frame fun m2 _ =>
      wx_bind (wx_set fun _ => wx_waitBusy fun rs2 => ?_))))
    have : Drive true ([.frame [0xc0, 0] m1] ++ (pollList rs ++ ([.frame [0x80, 0] m2] ++ rs2.map (.other .isBusy ·)))) false := by
      refine .wake ?_
      unfold pollList
      rw [List.append_assoc]
      refine drive_polls rs (.cmd (by decide) (by decide) ?_)
      have := drive_polls rs2 (Drive.nil false)
      rw [List.append_nil] at this
      exact this
    simpa [pollList, List.append_assoc] using h _ this

theorem dr_transfer {c : Byte} {o : Bytes} (h1 : c ≠ 0xc0) (h2 : c ≠ 0x84) : Dr (transfer (c :: o)) := fun b =>
  wx_bind (wx_checkDevice fun pre hp _ => wx_frame fun miso => by
    rw [List.append_assoc]
    exact drive_append hp (.cmd h1 h2 (.nil _)))

theorem dr_writeCommand {c : Byte} {o : Bytes} (h1 : c ≠ 0xc0) (h2 : c ≠ 0x84) : Dr (writeCommand c o) :=
  dr_bind (dr_transfer h1 h2) fun _ => dr_pure _

theorem dr_writeRegister (a : U16) (v : Byte) : Dr (writeRegister a v) :=
  dr_bind (dr_transfer (by decide) (by decide)) fun _ => dr_pure _

theorem dr_writeRegisters (a : U16) (v : Bytes) : Dr (writeRegisters a v) :=
  dr_bind (dr_transfer (by decide) (by decide)) fun _ => dr_pure _

theorem dr_writeBuffer (a : Byte) (v : Bytes) : Dr (writeBuffer a v) :=
  dr_bind (dr_transfer (by decide) (by decide)) fun _ => dr_pure _

theorem dr_readRegister (a : U16) : Dr (readRegister a) :=
  dr_bind (dr_transfer (by decide) (by decide)) fun m => by
    split
    · exact dr_pure _
    · exact dr_fail _

theorem dr_readRegisters (a : U16) (n : Nat) : Dr (readRegisters a n) :=
  dr_bind (dr_transfer (by decide) (by decide)) fun _ => dr_pure _

theorem dr_readCommand {c : Byte} (h1 : c ≠ 0xc0) (h2 : c ≠ 0x84) (n : Nat) : Dr (readCommand c n) :=
  dr_bind (dr_transfer h1 h2) fun _ => dr_pure _

theorem dr_sleep (hal : Hal) : Dr (sleep hal) := fun b => by
  refine wx_bind (wx_bind (wx_bind (wx_checkDevice fun pre hp _ => wx_frame fun miso _ => wx_pure fun _ =>
    wx_bind (wx_opt (by trivial) fun r _ => wx_bind (wx_do (by trivial) fun r' _ => wx_set ?_)))))
  have : Drive false (.other .isBusy 0 :: .frame [0x84, 0x04] miso ::
      ((if hal.ioDeinit then [.other .ioDeinit r] else []) ++ [.other (.delay 1000) r'])) true := by
    refine .sleep ?_
    cases hal.ioDeinit
    · exact .other (by trivial) (by simp) (.nil _)
    · exact .other (by trivial) (by simp) (.other (by trivial) (by simp) (.nil _))
  have := drive_append hp this
  simpa [List.append_assoc] using this

theorem dr_setPublicNetwork (p : Bool) : Dr (setPublicNetwork p) := dr_writeRegisters _ _

theorem dr_setPacketParams (p : PktParams) (len : Byte) : Dr (setPacketParams p len) :=
  dr_bind (dr_readRegister _) fun _ => dr_bind (dr_writeRegister _ _) fun _ => dr_writeCommand (by decide) (by decide)

theorem dr_setFreq (f : U32) : Dr (setFreq f) :=
  dr_bind (dr_writeCommand (by decide) (by decide)) fun _ => dr_writeCommand (by decide) (by decide)

theorem dr_setPower (o : Opts) (p : BitVec 8) : Dr (setPower o p) := by
  unfold setPower
  split
  · split
    · exact dr_pure _
    · exact dr_bind (dr_writeRegister _ _) fun _ => dr_bind (dr_writeCommand (by decide) (by decide)) fun _ =>
        dr_bind (dr_writeCommand (by decide) (by decide)) fun _ => dr_pure _
  · split
    · exact dr_pure _
    · exact dr_bind (dr_readRegister _) fun _ => dr_bind (dr_writeRegister _ _) fun _ => dr_bind (dr_writeRegister _ _) fun _ =>
        dr_bind (dr_writeCommand (by decide) (by decide)) fun _ =>
        dr_bind (dr_writeCommand (by decide) (by decide)) fun _ => dr_pure _

theorem dr_setup (hal : Hal) (p : PktParams) : Dr (setup hal p) :=
  dr_bind (dr_writeCommand (by decide) (by decide)) fun _ => dr_opt (by trivial) (by simp) _

theorem dr_tx (hal : Hal) (p : PktParams) (buf : Bytes) : Dr (tx hal p buf) :=
  dr_bind (dr_setPacketParams _ _) fun _ => dr_bind (dr_writeCommand (by decide) (by decide)) fun _ =>
    dr_bind (dr_writeBuffer _ _) fun _ => dr_bind (dr_opt (by trivial) (by simp) _) fun _ =>
    dr_writeCommand (by decide) (by decide)

theorem dr_rx (hal : Hal) (p : PktParams) (len : Byte) (symb : U16) (tmo : U32) : Dr (rx hal p len symb tmo) :=
  dr_bind (dr_setPacketParams _ _) fun _ => dr_bind (dr_writeCommand (by decide) (by decide)) fun _ =>
    dr_bind (dr_writeCommand (by decide) (by decide)) fun _ => dr_bind (dr_opt (by trivial) (by simp) _) fun _ =>
    dr_writeCommand (by decide) (by decide)

theorem dr_readBuffer {o : Byte} {buf : Bytes} {n : Nat} (h : n ≤ buf.length) : Dr (readBuffer o buf n) := fun b =>
  wx_bind (wx_checkDevice fun pre hp _ => wx_lift fun tr a e => by
    obtain ⟨m0, m1, m2, vs, _, _, hb⟩ := bus_readBuf h e
    refine ⟨_, hb, ?_⟩
    rw [List.append_assoc]
    exact drive_append hp (.cmd (by decide) (by decide) (.nil _)))

theorem dr_readPacket (buf : Bytes) : Dr (readPacket buf) := by
  refine dr_bind (dr_readCommand (by decide) (by decide) _) fun st => ?_
  split
  · refine dr_bind (dr_readBuffer (by split <;> omega)) fun _ => dr_bind (dr_readCommand (by decide) (by decide) _) fun ps => ?_
    split
    · exact dr_pure _
    · exact dr_fail _
  · exact dr_fail _

theorem dr_rand (hal : Hal) (p : PktParams) : Dr (rand hal p) :=
  dr_bind (dr_rx _ _ _ _ _) fun _ => dr_bind (dr_readRegisters _ _) fun r => dr_bind (dr_sleep _) fun _ => by
    split
    · exact dr_pure _
    · exact dr_fail _

theorem dr_irqHandler (h : Bool) : Dr (irqHandler h) :=
  dr_bind (dr_readCommand (by decide) (by decide) _) fun buf => dr_bind (dr_writeCommand (by decide) (by decide)) fun _ => by
    split
    · exact dr_bind (dr_opt (by trivial) (by simp) _) fun _ => dr_pure _
    · exact dr_fail _

theorem dr_setupTcxo (v : Byte) (t : U32) : Dr (setupTcxo v t) :=
  dr_bind (dr_writeCommand (by decide) (by decide)) fun _ => dr_writeRegister _ _

theorem dr_init (hal : Hal) (o : Opts) : Dr (init hal o) := fun b => by
  unfold init
  refine wx_bind (wx_do (by trivial) fun r1 _ => wx_bind (wx_do (by trivial) fun r2 _ => wx_bind (wx_do (by trivial) fun r3 _ =>
    wx_bind (wx_do (by trivial) fun r4 _ => wx_bind (wx_opt (by trivial) fun r5 _ => wx_bind (wx_set fun _ => ?_))))))
  have head : ∀ {l : List Bus} {b' : Bool}, Drive true l b' → Drive b ([.other (.reset true) r1] ++ ([.other (.delay 1000) r2] ++
      ([.other (.reset false) r3] ++ ([.other (.delay 20000) r4] ++ ((if hal.ioDeinit then [.other .ioDeinit r5] else []) ++ ([] ++ l)))))) b' := by
    intro l b' h
    refine .reset (.other (by trivial) (by simp) (.reset (.other (by trivial) (by simp) ?_)))
    cases hal.ioDeinit
    · exact h
    · exact .other (by trivial) (by simp) h
  refine wx_mono (Q := fun b' l => Drive true l b') ?_ fun b' l h => head h
  suffices tail : Dr (do
      writeCommand 0x89 [0x7f]
      let opError ← readCommand 0x17 2
      if opError.any (· ≠ 0) then pure false
      else do
        writeCommand 0x96 [if o.useDcdc then 0x01 else 0x00]
        sleep hal
        writeCommand 0x8a [0x01]
        setPublicNetwork true
        writeCommand 0x08 [0x02, 0x43, 0x02, 0x43, 0x00, 0x00, 0x00, 0x00]
        pure true) by
    refine dr_bind (dr_writeCommand (by decide) (by decide)) (fun _ => ?_) true
    by_cases ht : o.useTcxo = true
    · simp only [if_pos ht]
      exact dr_bind (dr_setupTcxo _ _) fun _ => tail
    · simp only [if_neg ht]
      exact tail
  refine dr_bind (dr_writeCommand (by decide) (by decide)) fun _ => dr_bind (dr_readCommand (by decide) (by decide) _) fun e => ?_
  split
  · exact dr_pure _
  · exact dr_bind (dr_writeCommand (by decide) (by decide)) fun _ => dr_bind (dr_sleep _) fun _ =>
      dr_bind (dr_writeCommand (by decide) (by decide)) fun _ => dr_bind (dr_setPublicNetwork _) fun _ =>
      dr_bind (dr_writeCommand (by decide) (by decide)) fun _ => dr_pure _

/-! ## Whole calls -/

theorem exec_with {α : Type} {s : St} {d : Drv α} {f : α → DRet} {tr : Trace} {r : DRet} {s' : St}
    (e : Exec (with_ s d f) tr (r, s')) :
    ∃ a b, Exec (d s.isSleep) tr (a, b) ∧ r = f a ∧ s' = { s with isSleep := b } := by
  obtain ⟨t1, t2, x, rfl, e1, e2⟩ := exec_bind e
  obtain ⟨rfl, ex⟩ := exec_ret e2
  injection ex with h1 h2
  rw [List.append_nil]
  exact ⟨x.1, x.2, e1, h1, h2⟩

/-- Every finished call follows `Drive`. -/
theorem drive_step {s s' : St} {op : DOp} {tr : Trace} {r : DRet} (e : Exec (step s op) tr (r, s')) :
    ∃ l, bus tr = some l ∧ Drive s.isSleep l s'.isSleep := by
  have run : ∀ {α : Type} {d : Drv α} {f : α → DRet} {s0 : St}, Dr d → Exec (with_ s0 d f) tr (r, s') →
      s0.isSleep = s.isSleep → ∃ l, bus tr = some l ∧ Drive s.isSleep l s'.isSleep := by
    intro α d f s0 h e hs
    obtain ⟨a, b, e1, _, rfl⟩ := exec_with e
    rw [← hs]
    exact h _ _ _ e1
  have nil : ∀ {y : DRet} {s0 : St}, Exec (pure (y, s0)) tr (r, s') → s0.isSleep = s.isSleep →
      ∃ l, bus tr = some l ∧ Drive s.isSleep l s'.isSleep := by
    intro y s0 e hs
    obtain ⟨rfl, ex⟩ := exec_ret e
    injection ex with _ ex
    refine ⟨[], rfl, ?_⟩
    rw [ex, hs]
    exact .nil _
  have fail : ∀ {u : UB}, Exec (.fail u) tr (r, s') → ∃ l, bus tr = some l ∧ Drive s.isSleep l s'.isSleep :=
    fun e => nomatch e
  cases op with
  | init h o =>
    cases h with
    | none => exact nil e rfl
    | some h =>
      cases o with
      | none => exact nil e rfl
      | some o => exact run (dr_init h o) e rfl
  | setEvtHandler b => exact nil e rfl
  | setPower p =>
    cases ho : s.opts with
    | none => simp only [step, ho] at e; exact fail e
    | some o =>
      cases hh : s.hal with
      | none =>
        simp only [step, ho, hh] at e
        split at e
        · split at e
          · exact nil e rfl
          · exact fail e
        · split at e
          · exact nil e rfl
          · exact fail e
      | some h => simp only [step, ho, hh] at e; exact run (dr_setPower o p) e rfl
  | sleep => cases hh : s.hal with
    | none => simp only [step, hh] at e; exact fail e
    | some h => simp only [step, hh] at e; exact run (dr_sleep h) e rfl
  | setFrequency f => cases hh : s.hal with
    | none => simp only [step, hh] at e; exact fail e
    | some h => simp only [step, hh] at e; exact run (dr_setFreq f) e rfl
  | setPublicNetwork b => cases hh : s.hal with
    | none => simp only [step, hh] at e; exact fail e
    | some h => simp only [step, hh] at e; exact run (dr_setPublicNetwork b) e rfl
  | setup p => cases hh : s.hal with
    | none => simp only [step, hh] at e; exact fail e
    | some h => simp only [step, hh] at e; exact run (dr_setup h p) e rfl
  | tx buf => cases hh : s.hal with
    | none => simp only [step, hh] at e; exact fail e
    | some h => simp only [step, hh] at e; exact run (dr_tx h s.pkt buf) e rfl
  | rx len symb tmo => cases hh : s.hal with
    | none => simp only [step, hh] at e; exact fail e
    | some h => simp only [step, hh] at e; exact run (dr_rx h s.pkt len symb tmo) e rfl
  | readPacket buf => cases hh : s.hal with
    | none => simp only [step, hh] at e; exact fail e
    | some h => simp only [step, hh] at e; exact run (dr_readPacket buf) e rfl
  | rand => cases hh : s.hal with
    | none => simp only [step, hh] at e; exact fail e
    | some h => simp only [step, hh] at e; exact run (dr_rand h s.pkt) e rfl
  | irqHandler => cases hh : s.hal with
    | none => simp only [step, hh] at e; exact fail e
    | some h => simp only [step, hh] at e; exact run (dr_irqHandler s.handler) e rfl

/-- A chip that sleeps only when the driver knows it is never talked to while asleep. -/
theorem drive_naps {b b' : Bool} {l : List Bus} (h : Drive b l b') : ∀ a : Bool, (a = true → b = true) →
    ∃ a', naps a l = some a' ∧ (a' = true → b' = true) := by
  induction h with
  | nil => exact fun a h => ⟨a, rfl, h⟩
  | poll _ ih => exact ih
  | @other b b' c r l hc hr _ ih =>
    intro a ha
    have : nap a (.other c r) = some a := by cases c <;> first | rfl | exact (hr _ rfl).elim
    simp only [naps, this, Option.bind]
    exact ih a ha
  | reset _ ih => exact fun a _ => ih false (fun h => nomatch h)
  | @wake b' m l _ ih =>
    intro a _
    have : nap a (.frame [0xc0, 0] m) = some false := by cases a <;> rfl
    simp only [naps, this, Option.bind]
    exact ih false (fun h => h)
  | @cmd b' c o m l h1 h2 _ ih =>
    intro a ha
    have : a = false := by cases a with | false => rfl | true => exact (ha rfl).symm
    subst this
    have : nap false (.frame (c :: o) m) = some false := congrArg some (decide_eq_false h2)
    simp only [naps, this, show nap false (.other .isBusy 0) = some false from rfl, Option.bind]
    exact ih false (fun h => h)
  | @sleep b' o m l _ ih =>
    intro a ha
    have : a = false := by cases a with | false => rfl | true => exact (ha rfl).symm
    subst this
    have : nap false (.frame (0x84 :: o) m) = some true := by simp [nap]
    simp only [naps, this, show nap false (.other .isBusy 0) = some false from rfl, Option.bind]
    exact ih true (fun _ => rfl)

theorem drive_polled {b b' : Bool} {l : List Bus} (h : Drive b l b') : ∀ r, polled r l = true := by
  induction h with
  | nil => intro _; rfl
  | poll _ ih => exact fun _ => ih _
  | @other b b' c r l hc hr _ ih => intro _; cases c <;> first | exact ih _ | exact hc.elim
  | reset _ ih => exact fun _ => ih _
  | wake _ ih => intro r; simp [polled, ih]
  | cmd _ _ _ ih => intro r; simp [polled, ih]
  | sleep _ ih => intro r; simp [polled, ih]

theorem naps_append : ∀ (l1 l2 : List Bus) (a : Bool), naps a (l1 ++ l2) = (naps a l1).bind (naps · l2)
  | [], _, _ => rfl
  | x :: l1, l2, a => by
    simp only [List.cons_append, naps]
    cases nap a x with
    | none => rfl
    | some a' => exact naps_append l1 l2 a'

theorem naps_quiet : ∀ (l : List Bus) (a : Bool), naps a (quiet l) = naps a l
  | [], _ => rfl
  | .frame o m :: l, a => by
    simp only [quiet, naps]
    cases nap a (.frame o m) with
    | none => rfl
    | some a' => exact naps_quiet l a'
  | .other c r :: l, a => by
    cases c <;> simp only [quiet, naps, nap, Option.bind, naps_quiet l]

theorem mem_quiet {x : Bus} : ∀ {l : List Bus}, x ∈ quiet l → x ∈ l
  | [], h => h
  | .frame o m :: l, h => by
    simp only [quiet, List.mem_cons] at h ⊢
    exact h.imp id mem_quiet
  | .other c r :: l, h => by
    cases c <;> simp only [quiet, List.mem_cons] at h ⊢ <;> first | exact .inr (mem_quiet h) | exact h.imp id mem_quiet

theorem reported_append : ∀ a b : List Bus, reported (a ++ b) = reported a ++ reported b
  | [], _ => rfl
  | .frame o i :: a, b => by simp only [List.cons_append, reported, reported_append a b]
  | .other c _ :: a, b => by cases c <;> simp only [List.cons_append, reported, reported_append a b]

/-- `init` resets the chip before it talks to it. -/
theorem wx_init_head (hal : Hal) (o : Opts) (b : Bool) : wx (init hal o) b fun b' l =>
    ∀ a, ∃ a', naps a l = some a' ∧ (a' = true → b' = true) := by
  intro tr x e
  obtain ⟨l, hb, hq⟩ := dr_init hal o b tr x e
  refine ⟨l, hb, fun a => ?_⟩
  have hr : ∃ r l', l = .other (.reset true) r :: l' := by
    have e := e
    unfold init at e
    obtain ⟨t1, t2, y, rfl, e1, e2⟩ := exec_bind e
    obtain ⟨t3, t4, z, rfl, e3, e4⟩ := exec_bind (p := do_ (.reset true)) (f := fun a => .ret (a, b)) e1
    cases e3 with
    | @call _ _ r tr _ e3 =>
      obtain ⟨rfl, _⟩ := exec_ret e3
      obtain ⟨rfl, _⟩ := exec_ret e4
      simp only [List.append_nil, List.cons_append, List.nil_append, bus, group] at hb
      cases hg : group none t2 with
      | none => rw [hg] at hb; exact nomatch hb
      | some l' =>
        rw [hg] at hb
        simp only [Option.map_some, Option.some.injEq] at hb
        exact ⟨r, l', hb.symm⟩
  obtain ⟨r, l', rfl⟩ := hr
  cases hq with
  | other hc hr' _ => exact (hr' true rfl).elim
  | reset h => exact drive_naps h false (fun h => nomatch h)

/-- A frame other than GetStatus among well-polled ones comes after a low BUSY line. -/
theorem polled_ready {c : Bytes} (hc : c.head? ≠ some 0xc0) : ∀ {l : List Bus} {r : Bool}, polled r l = true → c ∈ sent l →
    r = true ∨ Bus.other .isBusy 0 ∈ l
  | [], _, _, h => by simp [sent] at h
  | .frame o m :: l, r, hp, h => by
    simp only [polled, Bool.and_eq_true, Bool.or_eq_true, beq_iff_eq] at hp
    simp only [sent, List.mem_cons] at h
    rcases h with rfl | h
    · exact .inl (hp.1.resolve_right hc)
    · rcases polled_ready hc hp.2 h with h | h
      · exact nomatch h
      · exact .inr (List.mem_cons_of_mem _ h)
  | .other k x :: l, r, hp, h => by
    simp only [sent] at h
    by_cases hk : k = .isBusy
    · subst hk
      simp only [polled] at hp
      rcases polled_ready hc hp h with h | h
      · have : x = 0 := by simpa using h
        subst this
        exact .inr (by simp)
      · exact .inr (List.mem_cons_of_mem _ h)
    · have hp : polled false l = true := by cases k <;> first | exact hp | exact (hk rfl).elim
      rcases polled_ready hc hp h with h | h
      · exact nomatch h
      · exact .inr (List.mem_cons_of_mem _ h)

theorem mem_group {r : Byte} : ∀ {tr : Trace} {o : Option (Bytes × Bytes)} {l : List Bus}, group o tr = some l →
    Bus.other .isBusy r ∈ l → (Call.isBusy, r) ∈ tr
  | [], none, l, h, hm => by simp only [group, Option.some.injEq] at h; subst h; simp at hm
  | [], some _, l, h, _ => by simp [group] at h
  | (c, x) :: t, none, l, h, hm => by
    cases c with
    | select b =>
      cases b
      · simp [group] at h
      · simp only [group] at h
        exact List.mem_cons_of_mem _ (mem_group h hm)
    | xfer b => simp [group] at h
    | _ =>
      simp only [group] at h
      cases hg : group none t with
      | none => rw [hg] at h; exact nomatch h
      | some l' =>
        rw [hg] at h
        simp only [Option.map_some, Option.some.injEq] at h
        subst h
        simp only [List.mem_cons] at hm ⊢
        rcases hm with hm | hm
        · injection hm with h1 h2
          first
            | (subst h2; exact .inl rfl)
            | exact nomatch h1
        · exact .inr (mem_group hg hm)
  | (c, x) :: t, some (o, i), l, h, hm => by
    cases c with
    | select b =>
      cases b
      · simp only [group] at h
        cases hg : group none t with
        | none => rw [hg] at h; exact nomatch h
        | some l' =>
          rw [hg] at h
          simp only [Option.map_some, Option.some.injEq] at h
          subst h
          simp only [List.mem_cons] at hm
          rcases hm with hm | hm
          · exact nomatch hm
          · exact List.mem_cons_of_mem _ (mem_group hg hm)
      · simp [group] at h
    | xfer b =>
      simp only [group] at h
      exact List.mem_cons_of_mem _ (mem_group h hm)
    | _ => simp [group] at h

theorem mem_bus {r : Byte} {tr : Trace} {l : List Bus} (h : bus tr = some l) (hm : Bus.other .isBusy r ∈ l) :
    (Call.isBusy, r) ∈ tr := mem_group h hm

end Uwan.Sx126x
