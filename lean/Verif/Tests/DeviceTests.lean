import Verif.Model.Device
import Verif.Spec.LoRaWAN
import Verif.Tests.StackTests
import Verif.Tests.RadioTests

/-! Concrete histories of the stack on simulated chips, used to show that hypotheses of theorems can be met. -/

namespace Uwan

/-- What happens to a device: the application calls the driver or the stack (or a timer expires), the chip raises an interrupt, or
something happens to the chip. -/
inductive Act (τ : Type) where
  | app (op : DOp)
  | call (op : Op)
  | irq (o : Oracle)
  | world (f : τ → τ)

instance DItem.decShows (x : DItem) (o : Oracle) : Decidable (x.shows o) := by
  unfold DItem.shows
  split <;> infer_instance

section
variable {σ τ : Type} (E : Env) (dstep : σ → DOp → Prog (DRet × σ)) (chip : τ → Call → Byte × τ)

/-- One action; `none` if it is not possible. -/
def playOne (s : St) (d : σ) (t : τ) : Act τ → Option (List Entry × St × σ × τ)
  | .world f => some ([], s, d, f t)
  | .app op =>
    if op.direct then
      match (dstep d op).play chip t with
      | some (tr, (r, d'), t') => some ([⟨none, [⟨op, tr, r⟩]⟩], s, d', t')
      | none => none
    else none
  | .call op =>
    if op.isCall && decide op.Valid then
      match step E s op with
      | .error _ => none
      | .ok (r, s', ev) =>
        match playAll dstep chip d t (ev.filterMap (Ev.dop s.frame)) with
        | some (l, d', t') => some ([⟨some ⟨s, op, r, ev, s'⟩, l⟩], s', d', t')
        | none => none
    else none
  | .irq o =>
    match (dstep d .irqHandler).play chip t with
    | none => none
    | some (tr, (r, d1), t1) =>
      match handled tr with
      | [] => some ([⟨none, [⟨.irqHandler, tr, r⟩]⟩], s, d1, t1)
      | [m] =>
        match step E s (.event m o) with
        | .error _ => none
        | .ok (u, s', ev) =>
          match playAll dstep chip d1 t1 (ev.filterMap (Ev.dop s.frame)) with
          | some (l, d', t') =>
            if (l.all fun x => decide (x.shows o)) then some ([⟨some ⟨s, .event m o, u, ev, s'⟩, ⟨.irqHandler, tr, r⟩ :: l⟩], s', d', t') else none
          | none => none
      | _ => none

/-- Actions one after the other. -/
def playDevice : St → σ → τ → List (Act τ) → Option (List Entry × St × σ × τ)
  | s, d, t, [] => some ([], s, d, t)
  | s, d, t, a :: as =>
    match playOne E dstep chip s d t a with
    | none => none
    | some (l, s', d', t') =>
      match playDevice s' d' t' as with
      | none => none
      | some (l', x) => some (l ++ l', x)

variable {E dstep chip}

theorem playAll_runs : ∀ (ops : List DOp) {d d' : σ} {t t' : τ} {l : List DItem}, playAll dstep chip d t ops = some (l, d', t') →
    Runs dstep d ops l d'
  | [], d, d', t, t', l, e => by
    simp only [playAll, Option.some.injEq, Prod.mk.injEq] at e
    obtain ⟨rfl, rfl, rfl⟩ := e
    exact .nil
  | op :: ops, d, d', t, t', l, e => by
    simp only [playAll] at e
    split at e
    · exact nomatch e
    · rename_i h1
      split at e
      · exact nomatch e
      · rename_i h2
        simp only [Option.some.injEq, Prod.mk.injEq] at e
        obtain ⟨rfl, rfl⟩ := e
        exact .cons (Prog.play_exec _ _ _ h1) (playAll_runs ops h2)

theorem playOne_device {z : σ} {s s' : St} {d d' : σ} {t t' : τ} {log0 l : List Entry} (h : Device E dstep z log0 s d) (a : Act τ)
    (e : playOne E dstep chip s d t a = some (l, s', d', t')) : Device E dstep z (log0 ++ l) s' d' := by
  cases a with
  | world f =>
    simp only [playOne, Option.some.injEq, Prod.mk.injEq] at e
    obtain ⟨rfl, rfl, rfl, -⟩ := e
    rw [List.append_nil]
    exact h
  | app op =>
    simp only [playOne] at e
    split at e
    · rename_i hd
      split at e
      · rename_i h1
        simp only [Option.some.injEq, Prod.mk.injEq] at e
        obtain ⟨rfl, rfl, rfl, -⟩ := e
        exact .direct h hd (Prog.play_exec _ _ _ h1)
      · exact nomatch e
    · exact nomatch e
  | call op =>
    simp only [playOne] at e
    split at e
    · rename_i hd
      simp only [Bool.and_eq_true, decide_eq_true_eq] at hd
      split at e
      · exact nomatch e
      · rename_i h1
        split at e
        · rename_i h2
          simp only [Option.some.injEq, Prod.mk.injEq] at e
          obtain ⟨rfl, rfl, rfl, -⟩ := e
          exact .call h hd.1 hd.2 h1 (playAll_runs _ h2)
        · exact nomatch e
    · exact nomatch e
  | irq o =>
    simp only [playOne] at e
    split at e
    · exact nomatch e
    · rename_i h1
      split at e
      · rename_i h2
        simp only [Option.some.injEq, Prod.mk.injEq] at e
        obtain ⟨rfl, rfl, rfl, -⟩ := e
        exact .ignored h (Prog.play_exec _ _ _ h1) h2
      · rename_i h2
        split at e
        · exact nomatch e
        · rename_i h3
          split at e
          · rename_i h4
            split at e
            · rename_i h5
              simp only [Option.some.injEq, Prod.mk.injEq] at e
              obtain ⟨rfl, rfl, rfl, -⟩ := e
              exact .irq h (Prog.play_exec _ _ _ h1) h2 h3 (playAll_runs _ h4) fun x hx => of_decide_eq_true (List.all_eq_true.1 h5 x hx)
            · exact nomatch e
          · exact nomatch e
      · exact nomatch e

theorem playDevice_device {z : σ} : ∀ (as : List (Act τ)) {s s' : St} {d d' : σ} {t t' : τ} {log0 l : List Entry}, Device E dstep z log0 s d →
    playDevice E dstep chip s d t as = some (l, s', d', t') → Device E dstep z (log0 ++ l) s' d'
  | [], s, s', d, d', t, t', log0, l, h, e => by
    simp only [playDevice, Option.some.injEq, Prod.mk.injEq] at e
    obtain ⟨rfl, rfl, rfl, -⟩ := e
    rw [List.append_nil]
    exact h
  | a :: as, s, s', d, d', t, t', log0, l, h, e => by
    simp only [playDevice] at e
    split at e
    · exact nomatch e
    · rename_i h1
      split at e
      · exact nomatch e
      · rename_i h2
        simp only [Option.some.injEq, Prod.mk.injEq] at e
        obtain ⟨rfl, rfl⟩ := e
        rw [← List.append_assoc]
        exact playDevice_device as (playOne_device h a h1) h2

end

/-- The last entry of a history that ends with the stack at work, what came before, and the two states. -/
structure Played (σ : Type) where
  log : List Entry
  e : Entry
  it : Item
  s : St
  d : σ

/-- Play actions from power-on and split off the last entry. -/
def played {σ τ : Type} (E : Env) (dstep : σ → DOp → Prog (DRet × σ)) (chip : τ → Call → Byte × τ) (z : σ) (t : τ) (as : List (Act τ)) :
    Option (Played σ) :=
  match playDevice E dstep chip .boot z t as with
  | none => none
  | some (l, s, d, _) =>
    match l.reverse with
    | ⟨some it, c⟩ :: r => some ⟨r.reverse, ⟨some it, c⟩, it, s, d⟩
    | _ => none

theorem played_device {σ τ : Type} {E : Env} {dstep : σ → DOp → Prog (DRet × σ)} {chip : τ → Call → Byte × τ} {z : σ} {t : τ} {as : List (Act τ)}
    {p : Played σ} (h : played E dstep chip z t as = some p) : Device E dstep z (p.log ++ [p.e]) p.s p.d ∧ p.e.item = some p.it := by
  unfold played at h
  split at h
  · exact nomatch h
  · rename_i l s d t' h1
    split at h
    · rename_i it c r h2
      injection h with h
      subst h
      have : l = r.reverse ++ [⟨some it, c⟩] := by rw [← List.reverse_reverse l, h2]; simp
      have := this ▸ playDevice_device as .boot h1
      exact ⟨by simpa using this, rfl⟩
    · exact nomatch h

/-- A case made of a played history. -/
theorem of_played {σ τ : Type} {E : Env} {dstep : σ → DOp → Prog (DRet × σ)} {chip : τ → Call → Byte × τ} {z : σ} {t : τ} (as : List (Act τ))
    (p : Played σ → Bool) (h : (played E dstep chip z t as).any p = true) :
    ∃ x : Played σ, Device E dstep z (x.log ++ [x.e]) x.s x.d ∧ x.e.item = some x.it ∧ p x = true := by
  cases hx : played E dstep chip z t as with
  | none => rw [hx] at h; exact nomatch h
  | some x =>
    rw [hx] at h
    obtain ⟨h1, h2⟩ := played_device hx
    exact ⟨x, h1, h2, h⟩

instance decHonest (S : List Nat) : ∀ (l : List Spec.Reg) (c : Spec.Chip), Decidable (c.Honest S l)
  | [], _ => .isTrue trivial
  | .read a v :: l, c => by unfold Spec.Chip.Honest; exact @instDecidableAnd _ _ _ (decHonest S l _)
  | .write a v :: l, c => by unfold Spec.Chip.Honest; exact decHonest S l _
  | .reset :: l, c => by unfold Spec.Chip.Honest; exact decHonest S l _

/-- Something holds of what was on the bus. -/
def onBus (l : List DItem) (p : List Spec.Bus → Bool) : Bool := (Spec.bus (wire l)).any p

/-- A chip as it comes out of reset, as one register file. -/
def chip127 : Spec.Chip where
  por a := if 0x0d ≤ a ∧ a ≤ 0x3f then Sim127.por.lora a else Sim127.por.fsk a
  reg a := if 0x0d ≤ a ∧ a ≤ 0x3f then Sim127.por.lora a else Sim127.por.fsk a
  mem _ := 0

/-! ## A session on an SX127x -/

/-- A register of the simulated SX127x changes by itself. -/
def Sim127.poke (a : Nat) (v : Byte) (s : Sim127) : Sim127 := { s with lora := Spec.put s.lora a v }

/-- A packet arrives at an SX127x: buffer, length, start address, SNR, RSSI, and the flag RxDone. -/
def Sim127.arrive (p : Bytes) (s : Sim127) : Sim127 :=
  { s with
    lora := Spec.put (Spec.put (Spec.put (Spec.put (Spec.put s.lora 0x12 0x40) 0x13 (BitVec.ofNat 8 p.length)) 0x10 0) 0x19 0xec) 0x1a 0x25
    mem := fun a => p.getD a 0 }

/-- An SX126x that answers as told: interrupt flags, the packet in its buffer, and the frame in progress (command, first argument, number of
bytes so far). -/
structure Sim126 where
  flags : Byte × Byte
  n : Byte
  off : Byte
  mem : Byte → Byte
  cmd : Option (Byte × Byte × Nat)

/-- One HAL call. -/
def Sim126.chip (s : Sim126) : Call → Byte × Sim126
  | .select true => (0, { s with cmd := none })
  | .xfer b =>
    match s.cmd with
    | none => (0, { s with cmd := some (b, 0, 1) })
    | some (c, a, k) =>
      (if c = 0x13 then if k = 2 then s.n else s.off
        else if c = 0x12 then if k = 3 then s.flags.2 else s.flags.1
        else if c = 0x1e then s.mem (a + BitVec.ofNat 8 (k - 3))
        else if c = 0x14 then if k = 2 then 0xa0 else 0xec
        else 0, { s with cmd := some (c, if k = 1 then b else a, k + 1) })
  | _ => (0, s)

def Sim126.por : Sim126 := ⟨(0, 0), 0, 0, fun _ => 0, none⟩

/-- A packet arrives at an SX126x. -/
def Sim126.arrive (p : Bytes) (s : Sim126) : Sim126 :=
  { s with flags := (0, 2), n := BitVec.ofNat 8 p.length, off := 16, mem := fun a => p.getD (a.toNat - 16) 0 }

/-- Initialise radio and stack, and send. -/
def devStart {τ : Type} (o : Option Sx126x.Opts) (ops : List Op) : List (Act τ) :=
  [.app (.init (some ⟨true, true, true⟩) o), .call (.init .eu868), .call (.setSession 0x11223344 5 3 Tests.appKey Tests.appKey)] ++
    ops.map .call ++ [.call (.send 2 [1, 2, 3] false 0)]

/-- Nothing to read. -/
def noPkt : Oracle := Tests.rxOf []

/-- The same up to the first window. -/
def dev127Rx1 : List (Act Sim127) := devStart none [.setDr 5] ++ [.world (Sim127.poke 0x12 0x08), .irq noPkt, .call (.timer .rx1)]

def dev126Rx1 : List (Act Sim126) :=
  devStart (some testOpts) [.setDr 5] ++ [.world fun s => { s with flags := (0, 1) }, .irq noPkt, .call (.timer .rx1)]

/-- The same up to the second one. -/
def dev127Rx2 : List (Act Sim127) := dev127Rx1 ++ [.world (Sim127.poke 0x12 0x80), .irq noPkt, .call (.timer .rx2)]

def dev126Rx2 : List (Act Sim126) :=
  dev126Rx1 ++ [.world fun s => { s with flags := (2, 0) }, .irq noPkt, .call (.timer .rx2)]

/-- A confirmed downlink with the counter 9. -/
def devDl : Spec.Downlink := ⟨true, 0, 0, [6], some (7, [1, 2, 3])⟩

def devFrame : Bytes := devDl.build Tests.xorEnv Tests.appKey Tests.appKey 0x11223344 9

/-- It arrives in the second window. -/
def dev127Dl : List (Act Sim127) :=
  dev127Rx2 ++ [.world (Sim127.arrive devFrame), .irq ⟨devFrame, -127, -5, fun _ => 0x64, 0⟩]

def dev126Dl : List (Act Sim126) :=
  dev126Rx2 ++ [.world (Sim126.arrive devFrame), .irq ⟨devFrame, -80, -5, fun _ => 0x64, 0⟩]

/-- A second frame, with a maximum EIRP of 20 dBm. -/
def dev127Loud : List (Act Sim127) :=
  dev127Rx2 ++ [.world (Sim127.poke 0x12 0x80), .irq noPkt, .call (.setMaxEirp 20), .call (.send 2 [1, 2, 3] false 0)]

/-- A second frame, with a maximum EIRP of 23 dBm. -/
def dev126Loud : List (Act Sim126) :=
  dev126Rx2 ++ [.world fun s => { s with flags := (2, 0) }, .irq noPkt, .call (.setMaxEirp 23), .call (.send 2 [1, 2, 3] false 0)]

end Uwan
