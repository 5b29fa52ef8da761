import Verif.Spec.Radio

/-!
# The repository's driver tests, replayed on the model

tests/test_sx127x.c and tests/test_sx126x.c run against simulated chips; so do longer histories used as concrete cases
beside the driver theorems.
-/

namespace Uwan

/-- Play a sequence of driver calls against a chip. -/
def playAll {σ τ : Type} (step : σ → DOp → Prog (DRet × σ)) (chip : τ → Call → Byte × τ) :
    σ → τ → List DOp → Option (List DItem × σ × τ)
  | s, t, [] => some ([], s, t)
  | s, t, op :: ops =>
    match (step s op).play chip t with
    | none => none
    | some (tr, (r, s'), t') =>
      match playAll step chip s' t' ops with
      | none => none
      | some (log, x) => some (⟨op, tr, r⟩ :: log, x)

theorem playAll_calls {σ τ : Type} {step : σ → DOp → Prog (DRet × σ)} {chip : τ → Call → Byte × τ} {z : σ} :
    ∀ (ops : List DOp) {s : σ} {t : τ} {log0 log : List DItem} {s' : σ} {t' : τ}, Calls step z log0 s → (∀ op ∈ ops, op.Valid) →
      playAll step chip s t ops = some (log, s', t') → Calls step z (log0 ++ log) s'
  | [], s, t, log0, log, s', t', h, _, e => by
    simp only [playAll, Option.some.injEq, Prod.mk.injEq] at e
    obtain ⟨rfl, rfl, rfl⟩ := e
    rw [List.append_nil]
    exact h
  | op :: ops, s, t, log0, log, s', t', h, hv, e => by
    simp only [playAll] at e
    split at e
    · exact nomatch e
    · rename_i tr r s1 t1 h1
      split at e
      · exact nomatch e
      · rename_i log1 x h2
        simp only [Option.some.injEq, Prod.mk.injEq] at e
        obtain ⟨rfl, rfl⟩ := e
        have := playAll_calls ops (.snoc h (hv op (by simp)) (Prog.play_exec _ _ _ h1)) (fun o ho => hv o (by simp [ho])) h2
        simpa using this

/-- The log of a sequence of calls (empty if it does not finish). -/
def madeBy {σ τ : Type} (x : Option (List DItem × σ × τ)) : List DItem := match x with | some (l, _) => l | none => []

/-- The driver state after a sequence of calls. -/
def stateBy {σ τ : Type} (z : σ) (x : Option (List DItem × σ × τ)) : σ := match x with | some (_, s, _) => s | none => z

theorem calls_of_play {σ τ : Type} {step : σ → DOp → Prog (DRet × σ)} {chip : τ → Call → Byte × τ} {z : σ} {t : τ} {ops : List DOp}
    (h : (playAll step chip z t ops).isSome = true) (hv : ∀ op ∈ ops, op.Valid) :
    Calls step z (madeBy (playAll step chip z t ops)) (stateBy z (playAll step chip z t ops)) := by
  obtain ⟨⟨log, s, t'⟩, hx⟩ := Option.isSome_iff_exists.1 h
  have := playAll_calls ops (.nil) hv hx
  rw [hx]
  exact this

instance DOp.decValid (op : DOp) : Decidable op.Valid := by
  unfold DOp.Valid
  cases op <;> infer_instance

/-! ## A simulated SX127x, tests/test_sx127x.c:49-172 -/

/-- Register banks, the current transaction (command and position) and the FIFO. -/
structure Sim127 where
  fsk : Nat → Byte
  lora : Nat → Byte
  mem : Nat → Byte
  cmd : Option (Byte × Nat)

/-- The register bank an address belongs to. -/
def Sim127.isLora (s : Sim127) (a : Nat) : Bool :=
  (s.fsk 1).getLsbD 7 && !(s.fsk 1).getLsbD 6 && decide (0x0d ≤ a) && decide (a ≤ 0x3f)

def Sim127.get (s : Sim127) (a : Nat) : Byte := if s.isLora a then s.lora a else s.fsk a

def Sim127.set (s : Sim127) (a : Nat) (v : Byte) : Sim127 :=
  if s.isLora a then { s with lora := Spec.put s.lora a v } else { s with fsk := Spec.put s.fsk a v }

/-- One HAL call.  Unlike in the C mock the FIFO is a memory behind the address pointer. -/
def Sim127.chip (s : Sim127) : Call → Byte × Sim127
  | .select true => (0, { s with cmd := none })
  | .xfer b =>
    match s.cmd with
    | none => (0xff, { s with cmd := some (b, 0) })
    | some (c, n) =>
      let a := c.toNat % 128
      let s' := { s with cmd := some (c, n + 1) }
      if a = 0 then
        let p := s.get 0x0d
        if c.getLsbD 7 then (0xff, { s' with mem := Spec.put s.mem p.toNat b }.set 0x0d (p + 1))
        else (s.mem p.toNat, s'.set 0x0d (p + 1))
      else if c.getLsbD 7 then (0xff, s'.set (a + n) b)
      else (s.get (a + n), s')
  | _ => (0, s)

/-- Reset values of the registers the driver reads (include/uwan/device/sx127x.h). -/
def Sim127.por : Sim127 where
  fsk a := match a with
    | 0x01 => 0x01 | 0x06 => 0x6c | 0x07 => 0x80 | 0x09 => 0x4f | 0x0a => 0x09 | 0x0c => 0x20 | 0x3b => 0x82 | 0x42 => 0x12 | _ => 0
  lora a := match a with
    | 0x0e => 0x80 | 0x1d => 0x72 | 0x1e => 0x70 | 0x1f => 0x64 | 0x21 => 0x08 | 0x22 => 0x01 | 0x23 => 0xff | 0x33 => 0x13
    | 0x39 => 0x12 | 0x3b => 0x1d | _ => 0
  mem _ := 0
  cmd := none

/-- The parameters of the tests. -/
def testParams : PktParams := ⟨.sf12, .bw125, .cr45, 8, true, false, false⟩

def testOps (o : Option Sx126x.Opts) : List DOp :=
  [.init (some ⟨false, false, false⟩) o, .setFrequency 868900000, .setPower 14, .setup testParams,
   .tx [0, 1, 2, 3, 4, 5, 6, 7, 8, 9]]

/-- tests/test_sx127x.c:174-209. -/
example : (playAll Sx127x.step Sim127.chip .zero .por (testOps none)).map (fun x =>
    let c := x.2.2
    [c.get 0x01 &&& 0x87, c.get 0x0a &&& 0x0f, c.get 0x1d, c.get 0x1e &&& 0xf4, c.get 0x26 &&& 0x08, c.get 0x39, c.get 0x33,
      c.get 0x3b, c.get 0x22]) = some [0x83, 0x08, 0x72, 0xc4, 0x08, 0x34, 0x27, 0x1d, 10] := by decide +kernel

/-! ## A simulated SX126x, tests/test_sx126x.c:40-64 -/

/-- Answers 0xff except that there is no device error, that four bytes were received at offset 16, and that
RxDone is raised; the state is the command of the frame in progress and the number of its bytes so far. -/
def sim126 (st : Option (Byte × Nat)) : Call → Byte × Option (Byte × Nat)
  | .select true => (0, none)
  | .xfer b =>
    match st with
    | none => (0xff, some (b, 1))
    | some (c, n) =>
      (if c = 0x17 then if n = 2 ∨ n = 3 then 0 else 0xff
        else if c = 0x13 then if n = 2 then 4 else 0x10
        else if c = 0x12 then if n = 2 then 0 else 2
        else BitVec.ofNat 8 n, some (c, n + 1))
  | _ => (0, st)

def testOpts : Sx126x.Opts := ⟨true, true, true, 10, 0x02⟩

/-- tests/test_sx126x.c:110-136: SetPacketType before SetModulationParams before SetPacketParams. -/
example : (playAll Sx126x.step sim126 .zero none (testOps (some testOpts))).map (fun x =>
    (Spec.bus (wire x.1)).map fun l => ((Spec.sent l).filterMap List.head?).filter fun b => b = 0x8a ∨ b = 0x8b ∨ b = 0x8c) =
    some (some [0x8a, 0x8b, 0x8c]) := by decide +kernel

/-! ## Longer histories -/

/-- A day in the life of a driver. -/
def dayOps (o : Option Sx126x.Opts) : List DOp :=
  [.init (some ⟨true, true, true⟩) o, .setEvtHandler true, .setFrequency 868100000, .setPower 16, .setPower 99,
   .setup { testParams with sf := .sf7 }, .tx [1, 2, 3], .irqHandler, .sleep, .setPublicNetwork false, .rx 64 8 3000, .irqHandler,
   .readPacket [9, 9, 9, 9, 9, 9], .sleep, .rand, .setup { testParams with invertedIq := true }]

theorem dayOps_valid (o : Option Sx126x.Opts) : ∀ op ∈ dayOps o, op.Valid := by
  intro op h
  simp only [dayOps, List.mem_cons, List.not_mem_nil, or_false] at h
  rcases h with rfl | rfl | rfl | rfl | rfl | rfl | rfl | rfl | rfl | rfl | rfl | rfl | rfl | rfl | rfl | rfl <;>
    simp [DOp.Valid]

def Sx127x.day : Option (List DItem × Sx127x.St × Sim127) := playAll Sx127x.step Sim127.chip .zero .por (dayOps none)

def Sx126x.day : Option (List DItem × Sx126x.St × Option (Byte × Nat)) :=
  playAll Sx126x.step sim126 .zero none (dayOps (some testOpts))

theorem Sx127x.day_calls : Calls Sx127x.step .zero (madeBy Sx127x.day) (stateBy .zero Sx127x.day) :=
  calls_of_play (by decide +kernel) (dayOps_valid none)

theorem Sx126x.day_calls : Calls Sx126x.step .zero (madeBy Sx126x.day) (stateBy .zero Sx126x.day) :=
  calls_of_play (by decide +kernel) (dayOps_valid _)

/-- An initialised driver. -/
def Sx127x.up : Sx127x.St := { Sx127x.St.zero with hal := some ⟨true, true, true⟩, handler := true }

/-- The register accesses of a call to an initialised driver, with the bytes the chip answers. -/
def Sx127x.regsOf (op : DOp) (answers : Bytes) : Option (DRet × List Spec.Reg) :=
  ((Sx127x.step Sx127x.up op).play scripted answers).bind fun x => (Spec.bus x.1).map fun l => (x.2.1.1, Spec.regs l)

/-- An initialised driver whose chip sleeps or not. -/
def Sx126x.up (sleeping : Bool) : Sx126x.St :=
  { Sx126x.St.zero with hal := some ⟨true, true, true⟩, opts := some testOpts, handler := true, isSleep := sleeping, pkt := testParams }

/-- The frames sent in a call to an initialised driver, with the bytes the chip answers. -/
def Sx126x.framesOf (sleeping : Bool) (op : DOp) (answers : Bytes) : Option (DRet × List Bytes) :=
  ((Sx126x.step (Sx126x.up sleeping) op).play scripted answers).bind fun x => (Spec.bus x.1).map fun l => (x.2.1.1, Spec.sent l)

end Uwan
