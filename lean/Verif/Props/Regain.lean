import Verif.Props.Adr
import Verif.Props.Channels
import Verif.Props.Mac

/-!
# C129: a device the network no longer hears
-/

namespace Spec

/-- Nothing happened that bears on data rate, power or channels, except possibly an uplink: `calm`, and neither power nor channels were set. -/
def unattended (it : Uwan.Item) : Bool :=
  calm it &&
    match it.op with
    | .setTxPower _ | .setMaxEirp _ | .setChannel .. | .enableChannel .. => false
    | _ => true

end Spec

namespace Uwan
open Spec

variable {E : Env} {log : List Item} {it : Item} {s' : St} {port : Byte} {pld : Bytes} {c : Bool} {rnd : Nat}

theorem answer_same (c : Cfg) (l : Bytes) :
    ((c.answer l).2.pow, (c.answer l).2.eirp, (c.answer l).2.on, (c.answer l).2.freq) = (c.pow, c.eirp, c.on, c.freq) := by
  unfold Cfg.answer; split <;> rfl

theorem unattended_one (v : View) (k : Cfg) (h : unattended it = true) :
    ((k.next E v it).pow, (k.next E v it).eirp, (k.next E v it).on, (k.next E v it).freq) = (k.pow, k.eirp, k.on, k.freq) := by
  unfold unattended calm at h
  unfold Cfg.next
  cases hop : it.op <;> simp only [hop, Bool.and_true, Bool.and_false, Bool.false_eq_true] at h ⊢
  case join => split <;> rfl
  case send => split <;> rfl
  case event m o =>
    simp only [Bool.and_eq_true, bne_iff_ne] at h
    split
    · next e he =>
      rw [he] at h
      have e1 : e ≠ .no := fun hx => h.1 (by rw [hx])
      have e2 : e ≠ .msgMic := fun hx => h.2 (by rw [hx])
      simp only
      cases k.joining with
      | true => simp only [if_true, if_neg e1]
      | false =>
        simp only [Bool.false_eq_true, if_false]
        unfold Cfg.receive
        rw [if_neg (by simp [e1, e2])]
        split
        · rfl
        · unfold Cfg.noteAck; split <;> rfl
    · split <;> rfl
  case linkCheckReq => exact answer_same k [2]
  case deviceTimeReq => exact answer_same k [13]
  all_goals first | rfl | (split <;> rfl)

theorem unattended_seg {seg : List Item} (h : ∀ x ∈ seg, unattended x = true) :
    ((config E (log ++ seg)).pow, (config E (log ++ seg)).eirp, (config E (log ++ seg)).on, (config E (log ++ seg)).freq) =
      ((config E log).pow, (config E log).eirp, (config E log).on, (config E log).freq) := by
  revert h
  refine snoc_induction (P := fun seg => (∀ x ∈ seg, unattended x = true) →
    ((config E (log ++ seg)).pow, (config E (log ++ seg)).eirp, (config E (log ++ seg)).on, (config E (log ++ seg)).freq) =
      ((config E log).pow, (config E log).eirp, (config E log).on, (config E log).freq)) ?_ ?_ seg
  · intro _; rw [List.append_nil]
  · intro seg x ih h
    rw [← List.append_assoc, config_snoc, unattended_one _ _ (h x (List.mem_append_right _ List.mem_cons_self))]
    exact ih fun y hy => h y (List.mem_append_left _ hy)

/-- C129, what holds: with ADR on, a device that gets no answer sends at SF12 after limit + delay + 1 uplinks for every data rate step.
Missing: power and channels (`C129_kept`). -/
theorem C129_slows_partial {it0 : Item} {seg : List Item} (h : Hist E (log ++ [it0] ++ seg ++ [it]) s')
    (h0 : adrReset it0 = true) (hseg : ∀ x ∈ seg, calm x = true)
    (hop : it.op = .send port pld c rnd) (hr : it.ret = .err .no) (hon : adrOn (log ++ [it0] ++ seg) = true)
    (hn : (config E (log ++ [it0])).dr * ((config E (log ++ [it0])).limit + (config E (log ++ [it0])).adrDelay + 1) ≤ sentCount seg) :
    ∃ pp, (radio (trace (log ++ [it0] ++ seg ++ [it]))).txPp = some pp ∧ pp.sf = .sf12 := by
  obtain ⟨pp, h1, h2⟩ := C21_backoff h h0 hseg hop hr hon
  refine ⟨pp, h1, ?_⟩
  have := (Nat.le_div_iff_mul_le (by omega)).mpr hn
  have h12 : sfNum pp.sf = 12 := by rw [h2]; omega
  cases hx : pp.sf <;> rw [hx] at h12 <;> first | rfl | exact absurd h12 (by decide)

/-- C129 fails in every history: as long as the network is silent and the application changes neither power nor channels, every uplink and join-request,
whatever number went before, goes out at the power and on one of the channels set before. -/
theorem C129_kept {seg : List Item} (h : Hist E (log ++ seg ++ [it]) s') (hseg : ∀ x ∈ seg, unattended x = true) (hs : sentItem it = true)
    (hf : -128 ≤ (config E log).eirp - 2 * ((config E log).pow : Int)) :
    (∃ pre fr, it.ev = pre ++ [Ev.tx fr] ∧
      (radio (trace (log ++ seg) ++ pre)).power = some ((config E log).eirp - 2 * ((config E log).pow : Int))) ∧
    ∃ i, i < 16 ∧ (config E log).on i = true ∧ (radio (trace (log ++ seg ++ [it]))).txFreq = (config E log).freq i := by
  have hk := unattended_seg (E := E) (log := log) hseg
  simp only [Prod.mk.injEq] at hk
  obtain ⟨k1, k2, k3, k4⟩ := hk
  obtain ⟨i, i1, i2, -, i3⟩ := C16_enabled h hs
  obtain ⟨pre, fr, p1, p2⟩ := C24_power_partial h hs (by rw [k1, k2]; exact hf)
  rw [k1, k2] at p2
  rw [k3] at i2
  rw [k4] at i3
  exact ⟨⟨pre, fr, p1, p2⟩, i, i1, i2, i3⟩

/-- ADR with limit and delay 0; the network asks for DR5, the lowest power and channel 0 only; then it is silent. -/
def regainA : List Op := [.adrSetupAck 0 0, .adrEnable true] ++ dlOps
/-- see `regainA` -/
def regainCmd : Op := .event 2 (Tests.rxOf (cmdFrame [3, 0x57, 0x01, 0, 1]))
/-- see `regainA` -/
def regainB : List Op := (List.replicate 5 quietUp).flatten

/-- C129, an example: the network asks for DR5 at the lowest power on channel 0 alone. After five unanswered uplinks the sixth goes out at SF12, the
last resort, still at 0 dBm where the application allowed 14, and on 868.1 MHz while the two other default channels stay disabled. -/
theorem C129_faint : ∃ log it0 seg it s', Hist Tests.xorEnv (log ++ [it0] ++ seg ++ [it]) s' ∧ adrReset it0 = true ∧
    (∀ x ∈ seg, unattended x = true) ∧ (∃ port pld c rnd, it.op = .send port pld c rnd) ∧ it.ret = .err .no ∧
    adrOn (log ++ [it0] ++ seg) = true ∧ sentCount seg = 5 ∧
    (config Tests.xorEnv (log ++ [it0])).dr * ((config Tests.xorEnv (log ++ [it0])).limit + (config Tests.xorEnv (log ++ [it0])).adrDelay + 1) ≤ sentCount seg ∧
    (config Tests.xorEnv (log ++ [it0] ++ seg)).eirp = 14 ∧ (config Tests.xorEnv (log ++ [it0] ++ seg)).defPow = 0 ∧
    (radio (trace (log ++ [it0] ++ seg ++ [it]))).txPp.map (·.sf) = some .sf12 ∧
    (radio (trace (log ++ [it0] ++ seg ++ [it]))).power = some 0 ∧
    (List.range 3).map (config Tests.xorEnv (log ++ [it0] ++ seg)).on = [true, false, false] ∧
    (List.range 3).map (config Tests.xorEnv (log ++ [it0] ++ seg)).freq = [868100000, 868300000, 868500000] := by
  have h := Demo.two (a := regainA) (op1 := regainCmd) (b := regainB) (op2 := .send 2 [9] false 0) (by decide +kernel)
  refine ⟨_, _, _, _, _, h, ?_⟩
  rw [← List.all_eq_true]
  refine ⟨by decide +kernel, by decide +kernel, ⟨_, _, _, _, Demo.nextItem_op ..⟩, by decide +kernel, by decide +kernel, by decide +kernel, by decide +kernel,
    by decide +kernel, by decide +kernel, by decide +kernel, by decide +kernel, by decide +kernel, by decide +kernel⟩

example : ∃ log it0 seg it s', Hist Tests.xorEnv (log ++ [it0] ++ seg ++ [it]) s' ∧ adrReset it0 = true ∧ (∀ x ∈ seg, calm x = true) ∧
    it.ret = .err .no ∧ adrOn (log ++ [it0] ++ seg) = true ∧
    (config Tests.xorEnv (log ++ [it0])).dr * ((config Tests.xorEnv (log ++ [it0])).limit + (config Tests.xorEnv (log ++ [it0])).adrDelay + 1) ≤ sentCount seg := by
  obtain ⟨log, it0, seg, it, s', h, h0, h1, -, h2, h3, -, h4, -⟩ := C129_faint
  exact ⟨log, it0, seg, it, s', h, h0, fun x hx => by have := h1 x hx; unfold unattended at this; exact (Bool.and_eq_true_iff.mp this).1, h2, h3, h4⟩

example : ∃ log seg it s', Hist Tests.xorEnv (log ++ seg ++ [it]) s' ∧ (∀ x ∈ seg, unattended x = true) ∧ sentItem it = true ∧ sentCount seg = 5 ∧
    -128 ≤ (config Tests.xorEnv log).eirp - 2 * ((config Tests.xorEnv log).pow : Int) := by
  have h := Demo.two (a := regainA) (op1 := regainCmd) (b := regainB) (op2 := .send 2 [9] false 0) (by decide +kernel)
  refine ⟨_, _, _, _, h, ?_⟩
  rw [← List.all_eq_true]
  exact ⟨by decide +kernel, by decide +kernel, by decide +kernel, by decide +kernel⟩

end Uwan
