import Verif.Lemmas.Flags
import Verif.Lemmas.Story
import Verif.Props.Startup

/-! # Interrupt flags: cleared by the interrupt handler only (C78), each event told exactly once (C138) -/

namespace Uwan.Sx127x
open Spec

/-- **C78** (SX127x) No other driver call writes the interrupt flags, so none of them clears a flag (the reset in `init` does). -/
theorem C78_kept {s s' : St} {op : DOp} {tr : Trace} {r : DRet} (hv : op.Valid) (ho : op ≠ .irqHandler) (e : Exec (step s op) tr (r, s')) :
    ∃ l, bus tr = some l ∧ writesOf 0x12 (regs l) = [] ∧ reported l = [] := by
  have h2 : ∃ l, bus tr = some l ∧ writesOf 0x12 (regs l) = [] := by
    refine wr_step (P := fun op l => op ≠ .irqHandler → writesOf 0x12 l = []) hv ?_ ?_ ?_ ?_ ?_ ?_ ?_ ?_ ?_ ?_ ?_ ?_ e |>.imp fun l h => ⟨h.1, h.2 ho⟩
    · intro hal o _
      refine wr_init ?_ ?_ ?_
      · intro v _ _; simp [initHead, writesOf]
      · intro v vs _ _ _; simp [initHead, calFreq, burst, writesOf, writesOf_append, writesOf_reads]
      · intro v vs _ _ _ _; simp [initHead, calFreq, burst, writesOf, writesOf_append, writesOf_reads]
    · intros; simp [writesOf]
    · intros; simp [writesOf]
    · intros; simp [burst, writesOf]
    · intros; simp [writesOf]
    · intros; simp [writesOf]
    · intros; simp [writesOf]
    · intro buf _ v _; simp [burst_zero, writesOf, writesOf_append, writesOf_map]
    · intros; simp [writesOf]
    · intros; simp [pktRegs, writesOf, writesOf_append, writesOf_reads]
    · intros; simp [writesOf, writesOf_append, writesOf_reads]
    · intro h _ _ h'; exact (h' h).elim
  obtain ⟨l, hb, hw⟩ := h2
  refine ⟨l, hb, hw, ?_⟩
  rw [reported_handled hb]
  exact silent_exec e (silent_step ho)

/-- Writing the flags in `sleep` would be noticed. -/
example : writesOf 0x12 (regs [.frame [0x92, 0xff] [0, 0]]) ≠ [] := by decide

/-- Sleep. -/
example : (DOp.sleep).Valid ∧ regsOf .sleep [0, 0x85] = some (.unit, [.read 1 0x85, .write 1 0x80]) := ⟨trivial, by decide +kernel⟩

theorem flag127_append (e : Event) (a b : List Bus) : flag127 e (regs (a ++ b)) = flag127 e (regs a) ++ flag127 e (regs b) := by
  rw [regs_append]
  simp [flag127, List.filterMap_append]

theorem flag127_call {ev : Event} {s s' : St} {op : DOp} {tr : Trace} {r : DRet} (hv : op.Valid) (hi : ∀ a b, op ≠ .init a b) (e : Exec (step s op) tr (r, s')) :
    ∃ l, bus tr = some l ∧ ((flag127 ev (regs l) = [] ∧ tellings ev [⟨op, tr, r⟩] = 0) ∨
      ∃ b, flag127 ev (regs l) = [.read b, .clear b] ∧ tellings ev [⟨op, tr, r⟩] = pending b) := by
  by_cases ho : op = .irqHandler
  · subst ho
    obtain ⟨l, f, m, hb, -, rfl, hm, -, -, hl⟩ := C78_interrupts e
    refine ⟨l, hb, .inr ⟨f.getLsbD (bit127 ev), ?_, ?_⟩⟩
    · rw [hl]
      have : ∀ f : Byte, (f &&& 0xe8).getLsbD (bit127 ev) = f.getLsbD (bit127 ev) := by
        cases ev <;> decide +kernel
      simp only [flag127, List.filterMap_cons, List.filterMap_nil, if_true, this]
    · have : ∀ f : Byte, (flags127 f).has ev = f.getLsbD (bit127 ev) := by
        cases ev <;> decide +kernel
      simp [tellings, hm, this, pending, List.countP_cons]
  · have h2 := wr_step (P := fun op l => op ≠ .irqHandler → (∀ a b, op ≠ .init a b) → flag127 ev l = []) hv
      (fun hal o h => (hi _ _ h).elim) (by intros; simp [flag127]) (by intros; simp [flag127]) (by intros; simp [flag127, burst]) (by intros; simp [flag127])
      (by intros; simp [flag127]) (by intros; simp [flag127]) (by intros; simp [flag127, burst_zero, List.filterMap_append]) (by intros; simp [flag127])
      (by intros; simp [flag127, pktRegs, List.filterMap_append]) (by intros; simp [flag127, List.filterMap_append]) (by intro h _ _ h'; exact (h' h).elim) e
    obtain ⟨l, hb, h⟩ := h2
    refine ⟨l, hb, .inl ⟨h ho hi, ?_⟩⟩
    have : ∀ op : DOp, op ≠ .irqHandler → tellings ev [⟨op, tr, r⟩] = 0 := by
      intro op ho
      cases op <;> first | rfl | exact (ho rfl).elim
    exact this op ho

/-- **C138** (SX127x) In any sequence of calls after `init`, and for each of the four events: the chip raises the flag whenever it likes, also in the middle
of a call; each time it does (and the flag was not already up) the event is reported exactly once, unless the flag is still up at the end. -/
theorem C138_once {ev : Event} {z s : St} {log : List DItem} (h : Calls step z log s) (hn : ∀ x ∈ log, ∀ a b, x.op ≠ .init a b) :
    ∃ l, bus (wire log) = some l ∧ ∀ (f : Bool) (st : List FlagEv), driverPart st = flag127 ev (regs l) → Truthful f st →
      pending f + rises f st = tellings ev log + pending (flagAfter f st) :=
  told_once (ops := fun l => flag127 ev (regs l)) (flag127_append ev) flag127_call bus_append h hn

/-- Two calls of `irq_handler`; RxDone comes before the first and again right after the first has read the flags. -/
def twice127 : Option (List DItem × St × Bytes) := playAll step scripted up [0, 0x40, 0, 0, 0, 0x40, 0, 0] [.irqHandler, .irqHandler]

example : Calls step up (madeBy twice127) (stateBy up twice127) ∧ tellings .rxDone (madeBy twice127) = 2 ∧
    (bus (wire (madeBy twice127))).map (fun l => flag127 .rxDone (regs l)) = some [.read true, .clear true, .read true, .clear true] ∧
    driverPart [.raised, .read true, .clear true, .raised, .read true, .clear true] = [.read true, .clear true, .read true, .clear true] ∧
    rises false [.raised, .read true, .clear true, .raised, .read true, .clear true] = 2 ∧
    Truthful false [.raised, .read true, .clear true, .raised, .read true, .clear true] :=
  ⟨calls_of_play (by decide +kernel) (by decide), by decide +kernel, by decide +kernel, by decide, by decide, rfl, rfl, trivial⟩

end Uwan.Sx127x

namespace Uwan.Sx126x
open Spec

/-- Neither GetIrqStatus nor ClearIrqStatus nor a call of the event handler. -/
def idle : Bus → Bool
  | .frame (c :: _) _ => c != 0x02 && c != 0x12
  | .frame [] _ => true
  | .other (.handler _) _ => false
  | .other _ _ => true

def Idle (l : List Bus) : Prop := ∀ x ∈ l, idle x = true

theorem idle_nil : Idle [] := nofun

theorem idle_append {a b : List Bus} (h : Idle a) (k : Idle b) : Idle (a ++ b) := by
  intro x hx
  rcases List.mem_append.1 hx with hx | hx
  · exact h x hx
  · exact k x hx

theorem idle_wake {b : Bool} {pre : List Bus} (h : Wake b pre) : Idle pre := by
  cases h
  · exact idle_nil
  · simp [Idle, idle]

theorem idle_opt {t : Bool} {c : Call} {r : Byte} (h : ∀ m, c ≠ .handler m) : Idle (if t then [.other c r] else []) := by
  cases t
  · exact idle_nil
  · cases c <;> first | (simp [Idle, idle]; done) | exact (h _ rfl).elim

theorem idle_sleep {t : Bool} {m : Bytes} {r r' : Byte} : Idle (.frame [0x84, 0x04] m :: ((if t then [.other .ioDeinit r] else []) ++ [.other (.delay 1000) r'])) := by
  cases t <;> simp [Idle, idle]

theorem idle_frames {l : List Bus} (h : ∀ x ∈ l, idle x = true) : Idle l := h

theorem idle_head {hal : Hal} {o : Opts} {r1 r2 r3 r4 r5 : Byte} {w1 w2 c1 c2 t1 t2 : Bytes} {m0 m1 x y : Byte} :
    Idle (initHead hal o r1 r2 r3 r4 r5 w1 w2 c1 c2 t1 t2 m0 m1 x y) := by
  refine idle_append (idle_append (idle_append (idle_append (by simp [Idle, idle]) (idle_opt (by simp))) (by simp [Idle, idle])) ?_) (by simp [Idle, idle])
  cases o.useTcxo
  · exact idle_nil
  · simp [Idle, idle]

theorem idle_tail {hal : Hal} {o : Opts} {r6 r7 : Byte} {c3 c4 w3 w4 c5 c6 c7 : Bytes} : Idle (initTail hal o r6 r7 c3 c4 w3 w4 c5 c6 c7) :=
  idle_append (idle_append (by simp [Idle, idle]) (idle_opt (by simp))) (by simp [Idle, idle])

theorem idle_step {s s' : St} {op : DOp} {tr : Trace} {r : DRet} (hi : op ≠ .irqHandler) (e : Exec (step s op) tr (r, s')) :
    ∃ l, bus tr = some l ∧ Idle (quiet l) := by
  cases op with
  | init hal o =>
    cases hal with
    | none =>
      obtain ⟨rfl, _⟩ := exec_ret e
      exact ⟨[], rfl, idle_nil⟩
    | some hal =>
      cases o with
      | none =>
        obtain ⟨rfl, _⟩ := exec_ret e
        exact ⟨[], rfl, idle_nil⟩
      | some o =>
        obtain ⟨l, ok, hb, _, h⟩ := init_lists e (P := fun _ l => Idle l)
          (fun _ _ _ _ _ _ _ _ _ _ _ _ _ _ _ => idle_head) (fun _ _ _ _ _ _ _ _ _ _ _ _ _ _ _ _ _ _ _ _ _ _ => idle_append idle_head idle_tail)
        exact ⟨l, hb, h⟩
  | setEvtHandler b =>
    obtain ⟨rfl, _⟩ := exec_ret e
    exact ⟨[], rfl, idle_nil⟩
  | setPower p =>
    obtain ⟨o, ho, hin, hout⟩ := C73_power e
    by_cases hp : if o.isHp then -9 ≤ p.toInt ∧ p.toInt ≤ 22 else -17 ≤ p.toInt ∧ p.toInt ≤ 15
    · cases hh : s.hal with
      | none =>
        simp only [step, ho, hh] at e
        exfalso
        cases hx : o.isHp
        · simp only [hx, Bool.false_eq_true, if_false] at hp
          simp only [hx, if_true] at e
          rw [if_neg (by omega)] at e
          exact (Sx127x.exec_fail e).elim
        · simp only [hx, if_true] at hp
          simp only [hx, Bool.true_eq_false, if_false] at e
          rw [if_neg (by omega)] at e
          exact (Sx127x.exec_fail e).elim
      | some hal =>
        simp only [step, ho, hh] at e
        obtain ⟨a, b, e1, _, _⟩ := exec_with e
        refine wd_exec (Q := fun _ _ l => Idle l) ?_ e1
        cases hx : o.isHp
        · simp only [hx, Bool.false_eq_true, if_false] at hp
          exact wd_setPower_lp hx hp fun pre m1 m2 m3 hw => idle_append (idle_wake hw) (idle_frames (by simp [idle]))
        · simp only [hx, if_true] at hp
          exact wd_setPower_hp hx hp fun pre a0 a1 a2 a3 v m0 m1 m2 m3 hw => idle_append (idle_wake hw) (idle_frames (by simp [idle]))
    · obtain ⟨_, rfl, _⟩ := hout hp
      exact ⟨[], rfl, idle_nil⟩
  | setFrequency f =>
    obtain ⟨hal, hh⟩ := hal_of_exec e (by simp) (by simp) (by simp)
    simp only [step, hh] at e
    obtain ⟨a, b, e1, _, _⟩ := exec_with e
    exact wd_exec (Q := fun _ _ l => Idle l) (wd_setFreq fun pre m1 m2 hw => idle_append (idle_wake hw) (idle_frames (by simp [idle]))) e1
  | setPublicNetwork pub =>
    obtain ⟨hal, hh⟩ := hal_of_exec e (by simp) (by simp) (by simp)
    simp only [step, hh] at e
    obtain ⟨a, b, e1, _, _⟩ := exec_with e
    exact wd_exec (Q := fun _ _ l => Idle l) (wd_setPublicNetwork fun pre m hw => idle_append (idle_wake hw) (idle_frames (by simp [idle]))) e1
  | setup p =>
    obtain ⟨hal, hh⟩ := hal_of_exec e (by simp) (by simp) (by simp)
    simp only [step, hh] at e
    obtain ⟨a, b, e1, _, _⟩ := exec_with e
    exact wd_exec (Q := fun _ _ l => Idle l) (wd_setup fun pre m r hw =>
      idle_append (idle_append (idle_wake hw) (idle_frames (by simp [idle]))) (idle_opt (by simp))) e1
  | sleep =>
    obtain ⟨hal, hh⟩ := hal_of_exec e (by simp) (by simp) (by simp)
    simp only [step, hh] at e
    obtain ⟨a, b, e1, _, _⟩ := exec_with e
    exact wd_exec (Q := fun _ _ l => Idle l) (wd_sleep fun pre m r r' hw => by
      rw [List.append_assoc, List.append_assoc]
      exact idle_append (idle_wake hw) idle_sleep) e1
  | tx buf =>
    obtain ⟨hal, hh⟩ := hal_of_exec e (by simp) (by simp) (by simp)
    simp only [step, hh] at e
    obtain ⟨a, b, e1, _, _⟩ := exec_with e
    exact wd_exec (Q := fun _ _ l => Idle l) (wd_tx fun pre a0 a1 a2 a3 v n1 n2 m1 m2 m3 r hw =>
      idle_append (idle_append (idle_append (idle_append (idle_wake hw) (idle_frames (by simp [idle, pktFrames]))) (idle_frames (by simp [idle])))
        (idle_opt (by simp))) (idle_frames (by simp [idle]))) e1
  | rx len symb tmo =>
    obtain ⟨hal, hh⟩ := hal_of_exec e (by simp) (by simp) (by simp)
    simp only [step, hh] at e
    obtain ⟨a, b, e1, _, _⟩ := exec_with e
    exact wd_exec (Q := fun _ _ l => Idle l) (wd_rx fun pre a0 a1 a2 a3 v n1 n2 m1 m2 m3 r hw =>
      idle_append (idle_append (idle_append (idle_append (idle_wake hw) (idle_frames (by simp [idle, pktFrames]))) (idle_frames (by simp [idle])))
        (idle_opt (by simp))) (idle_frames (by simp [idle]))) e1
  | readPacket buf =>
    obtain ⟨hal, hh⟩ := hal_of_exec e (by simp) (by simp) (by simp)
    simp only [step, hh] at e
    obtain ⟨a, b, e1, _, _⟩ := exec_with e
    exact wd_exec (Q := fun _ _ l => Idle l) (wd_readPacket fun pre a0 a1 n off b0 b1 b2 vs c0 c1 rssi snr sig hw hl =>
      idle_append (idle_wake hw) (idle_frames (by simp [idle]))) e1
  | rand =>
    obtain ⟨hal, hh⟩ := hal_of_exec e (by simp) (by simp) (by simp)
    simp only [step, hh] at e
    obtain ⟨a, b, e1, _, _⟩ := exec_with e
    refine wd_exec (Q := fun _ _ l => Idle l) (wd_rand fun pre a0 a1 a2 a3 v n1 n2 m1 m2 m3 r d0 d1 d2 d3 x0 x1 x2 x3 m4 r1 r2 hw => ?_) e1
    have : ∀ (a b c d f : List Bus) (x y z : Bus), a ++ b ++ c ++ d ++ [x, y, z] ++ f ++ [.other (.delay 1000) r2] =
        a ++ b ++ c ++ d ++ [x, y] ++ (z :: (f ++ [.other (.delay 1000) r2])) := by simp
    rw [this]
    exact idle_append (idle_append (idle_append (idle_append (idle_append (idle_wake hw) (idle_frames (by simp [idle, pktFrames]))) (idle_frames (by simp [idle])))
      (idle_opt (by simp))) (idle_frames (by simp [idle]))) idle_sleep
  | irqHandler => exact (hi rfl).elim

theorem idle_spec : ∀ {l : List Bus}, Idle l → (∀ x ∈ sent l, x.head? ≠ some 0x02) ∧ reported l = []
  | [], _ => ⟨nofun, rfl⟩
  | x :: l, h => by
    obtain ⟨h1, h2⟩ := idle_spec (l := l) fun y hy => h y (by simp [hy])
    have hx := h x (by simp)
    cases x with
    | frame o m =>
      refine ⟨?_, h2⟩
      intro y hy
      simp only [sent, List.mem_cons] at hy
      rcases hy with rfl | hy
      · cases y with
        | nil => simp
        | cons c y => exact fun h => by simp_all [idle]
      · exact h1 y hy
    | other c r => cases c <;> first | exact ⟨h1, h2⟩ | exact nomatch hx

/-- **C78** (SX126x) No other driver call clears an interrupt flag (the reset in `init` does) or reports an event. -/
theorem C78_kept {s s' : St} {op : DOp} {tr : Trace} {r : DRet} (ho : op ≠ .irqHandler) (e : Exec (step s op) tr (r, s')) :
    ∃ l, bus tr = some l ∧ (∀ x ∈ sent l, x.head? ≠ some 0x02) ∧ reported l = [] := by
  obtain ⟨l, hb, h⟩ := idle_step ho e
  obtain ⟨h1, h2⟩ := idle_spec h
  rw [sent_quiet] at h1
  rw [reported_quiet] at h2
  exact ⟨l, hb, h1, h2⟩

/-- Sleep. -/
example : framesOf false .sleep [] = some (.unit, [[0x84, 0x04]]) := by decide +kernel

theorem flag126_append (e : Event) (a b : List Bus) : flag126 e (a ++ b) = flag126 e a ++ flag126 e b := by
  simp [flag126, List.filterMap_append]

theorem flag126_quiet (e : Event) : ∀ l : List Bus, flag126 e (quiet l) = flag126 e l
  | [] => rfl
  | .frame o m :: l => by
    have := flag126_quiet e l
    simp only [quiet, flag126, List.filterMap_cons] at this ⊢
    rw [this]
  | .other c r :: l => by
    have := flag126_quiet e l
    cases c <;> simp only [quiet, flag126, List.filterMap_cons] at this ⊢ <;> first | exact this | rw [this]

theorem flag126_none {e : Event} : ∀ {l : List Bus}, Idle l → (∀ x r, Bus.other (.reset x) r ∉ l) → flag126 e l = []
  | [], _, _ => rfl
  | x :: l, h, k => by
    have ih := flag126_none (e := e) (l := l) (fun y hy => h y (by simp [hy])) (fun a b hy => k a b (by simp [hy]))
    have hx := h x (by simp)
    have kx : ∀ a b, x ≠ .other (.reset a) b := fun a b hx => k a b (by simp [hx])
    unfold flag126 at ih ⊢
    rw [List.filterMap_cons, ih]
    split
    · rfl
    · rename_i b hb
      split at hb
      · simp [idle] at hx
      · simp [idle] at hx
      · exact (kx _ _ rfl).elim
      · exact nomatch hb

theorem made_noReset {l : List Bus} (h : Made l) : ∀ x r, Bus.other (.reset x) r ∉ l := by
  induction h with
  | nil => simp
  | other h1 _ _ ih => intro x r hx; rcases List.mem_cons.1 hx with hx | hx; · injection hx with hx; exact h1 x hx.symm
                       exact ih x r hx
  | frame _ _ _ _ ih => intro x r hx; exact ih x r (by simpa using hx)
  | sleep _ ih => intro x r hx; exact ih x r (by simpa using hx)
  | nap _ ih => intro x r hx; exact ih x r (by simpa using hx)

theorem flag126_call {ev : Event} {s s' : St} {op : DOp} {tr : Trace} {r : DRet} (_hv : op.Valid) (hi : ∀ a b, op ≠ .init a b) (e : Exec (step s op) tr (r, s')) :
    ∃ l, bus tr = some l ∧ ((flag126 ev l = [] ∧ tellings ev [⟨op, tr, r⟩] = 0) ∨
      ∃ b, flag126 ev l = [.read b, .clear b] ∧ tellings ev [⟨op, tr, r⟩] = pending b) := by
  by_cases ho : op = .irqHandler
  · subst ho
    have e0 := e
    obtain ⟨hal, hh⟩ := hal_of_exec e (by simp) (by simp) (by simp)
    simp only [step, hh] at e
    obtain ⟨m, b, e1, rfl, _⟩ := exec_with e
    suffices key : wd (irqHandler s.handler) s.isSleep fun m _ l => ∃ b1 b0 : Byte,
        flag126 ev l = [.read ((b1 ++ b0).getLsbD (bit126 ev)), .clear ((b1 ++ b0).getLsbD (bit126 ev))] ∧ maskEvents m = some (flags126 b1 b0) by
      obtain ⟨l, hb, b1, b0, h1, h2⟩ := wd_exec key e1
      rw [flag126_quiet] at h1
      refine ⟨l, hb, .inr ⟨_, h1, ?_⟩⟩
      have : (flags126 b1 b0).has ev = (b1 ++ b0).getLsbD (bit126 ev) := by
        have h8 : ∀ (b : Byte) (k : Nat), k < 8 → b.getLsbD k = decide (b.toNat / 2 ^ k % 2 = 1) := by
          intro b k _
          rw [BitVec.getLsbD, Nat.testBit_eq_decide_div_mod_eq]
        cases ev <;> rw [show ∀ k, (b1 ++ b0).getLsbD k = if k < 8 then b0.getLsbD k else b1.getLsbD (k - 8) from fun k => BitVec.getLsbD_append] <;>
          simp [flags126, Events.has, bit126, h8, -BitVec.getLsbD_eq_getElem]
      simp [tellings, h2, this, pending, List.countP_cons]
    refine wd_irqHandler fun pre a0 a1 b1 b0 m r res hw hm => ⟨b1, b0, ?_, hm⟩
    have hpre : flag126 ev pre = [] := by generalize s.isSleep = b at hw; cases hw <;> rfl
    rw [flag126_append, flag126_append, hpre]
    cases s.handler <;> rfl
  · obtain ⟨l, hb, h1⟩ := idle_step ho e
    obtain ⟨l', hb', h2⟩ := made_step hi e
    rw [hb] at hb'
    injection hb' with hb'
    subst hb'
    refine ⟨l, hb, .inl ⟨?_, ?_⟩⟩
    · rw [← flag126_quiet]
      exact flag126_none h1 (made_noReset h2)
    · have : ∀ op : DOp, op ≠ .irqHandler → tellings ev [⟨op, tr, r⟩] = 0 := by
        intro op ho
        cases op <;> first | rfl | exact (ho rfl).elim
      exact this op ho

/-- **C138** (SX126x) In any sequence of calls after `init`, and for each of the four events: the chip raises the flag whenever it likes, also in the middle
of a call; each time it does (and the flag was not already up) the event is reported exactly once, unless the flag is still up at the end. -/
theorem C138_once {ev : Event} {z s : St} {log : List DItem} (h : Calls step z log s) (hn : ∀ x ∈ log, ∀ a b, x.op ≠ .init a b) :
    ∃ l, bus (wire log) = some l ∧ ∀ (f : Bool) (st : List FlagEv), driverPart st = flag126 ev l → Truthful f st →
      pending f + rises f st = tellings ev log + pending (flagAfter f st) :=
  told_once (ops := flag126 ev) (flag126_append ev) flag126_call bus_append h hn

/-- Two calls of `irq_handler`: Timeout, then, raised right after the flags were read, Timeout again. -/
def twice126 : Option (List DItem × St × Bytes) := playAll step scripted (up false) [0, 0, 2, 0, 0, 0, 0, 0, 0, 2, 0] [.irqHandler, .irqHandler]

example : Calls step (up false) (madeBy twice126) (stateBy (up false) twice126) ∧ tellings .timeout (madeBy twice126) = 2 ∧
    (bus (wire (madeBy twice126))).map (flag126 .timeout) = some [.read true, .clear true, .read true, .clear true] :=
  ⟨calls_of_play (by decide +kernel) (by decide), by decide +kernel, by decide +kernel⟩

end Uwan.Sx126x
