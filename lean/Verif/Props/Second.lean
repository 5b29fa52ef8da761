import Verif.Props.Exchange
import Verif.Props.Downlink

/-!
# The second receive window is skipped only for a frame to this device (C141)

LoRaWAN 1.0.3, 3.3.4: "If a frame was detected and subsequently demodulated during the first receive window and the frame was intended for this
end-device after address and MIC checks, the end-device does not open the second receive window." Full claim: each window is opened when its timer
fires; the second is given up only if the first brought a frame that passes these checks. What holds is that it is given up only if the first
brought some frame.
-/

namespace Uwan
open Spec

variable {E : Env} {log : List Item} {it : Item} {s' : St}

theorem quiet_no_stop {q : List Ev} (h : Quiet q) : Ev.stopTimer .rx2 ∉ q := fun hx => Bool.noConfusion (h.all _ hx)

/-- **C141**, what holds: when its timer fires, each window is opened; a first window that timed out leads to the second; the timer of the second
is stopped only when the radio received something in the first. Missing: that this was a frame for the device, see `C141_cut`. -/
theorem C141_opened_partial (h : Hist E (log ++ [it]) s') :
    (stage (trace log) = .rx1 → it.op = .timer .rx1 → it.ev = [.rx 255 8 0]) ∧
    (stage (trace log) = .rx2 → it.op = .timer .rx2 → it.ev = [.rx 255 8 0]) ∧
    (∀ m o, stage (trace log) = .rx1 → it.op = .event m o → m.toNat % 2 = 1 →
      stage (trace (log ++ [it])) = .rx2 ∧ Ev.stopTimer .rx2 ∉ it.ev) ∧
    (Ev.stopTimer .rx2 ∈ it.ev → stage (trace log) = .rx1 ∧ (outcome log it = .crc ∨ ∃ l, outcome log it = .packet l)) := by
  obtain ⟨s, h1, -, -, -, hs⟩ := h.last
  refine ⟨fun ht hop => ?_, fun ht hop => ?_, fun m o ht hop hm => ?_, fun hst => ?_⟩
  · have hp := phase_of h1 .rx1 ht
    rw [hop] at hs
    simp only [step, timerCallback, hp, Except.ok.injEq, Prod.mk.injEq] at hs
    rw [← hs.2.2]
    simp
  · have hp := phase_of h1 .rx2 ht
    rw [hop] at hs
    simp only [step, timerCallback, hp, Except.ok.injEq, Prod.mk.injEq] at hs
    rw [← hs.2.2]
    simp
  · have hp := phase_of h1 .rx1 ht
    have hm' : irqRxTimeout m = true := by rw [(irqBits m).2.1]; simpa using hm
    rw [stage_hist h]
    rw [hop] at hs
    have hc := step_event h1.inv hs
    generalize it.ev = ev at hc ⊢
    cases hc with
    | ignore hi => simp [hp, hm'] at hi
    | txDone _ _ hp' => simp [hp] at hp'
    | rx1Timeout d => exact ⟨rfl, by simp⟩
    | rx1Done _ _ _ ht' => simp [hm'] at ht'
    | rx2Timeout _ _ hp' => simp [hp] at hp'
    | rx2Done _ _ hp' => simp [hp] at hp'
  · have hsh := step_shape h1.inv hs
    cases hop : it.op with
    | event m o =>
      rw [hop] at hs
      have hc := step_event h1.inv hs
      unfold outcome
      rw [hop, stage_hist h1]
      generalize it.ev = ev at hc hst
      have noStop : ∀ {s1 s2 : St} {err : Err} {ev : List Ev}, DlCase E o s1 err s2 ev → Ev.stopTimer .rx2 ∈ ev → False := by
        intro s1 s2 err ev hd hm
        obtain ⟨a, q, e, mt, p, ha, hq, rfl⟩ := hd.shape
        have hnq := quiet_no_stop hq
        rcases ha with rfl | rfl <;> simp [hnq] at hm
      cases hc with
      | ignore hi => simp at hst
      | txDone m' ev2 hp hm hmac =>
        have hnq := quiet_no_stop (macOnTxComplete_quiet hmac)
        simp [hnq] at hst
      | rx1Timeout d => simp at hst
      | rx1Done _ _ hp ht' hm' =>
        rw [(irqBits m).2.1] at ht'
        rw [(irqBits m).2.2.1] at hm'
        have h1 : m.toNat % 2 ≠ 1 := by simpa using ht'
        have h2 : m.toNat / 2 % 2 = 1 := by simpa using hm'
        refine ⟨by rw [hp]; rfl, ?_⟩
        simp only [hp, phaseStage, true_or, if_true, h1, if_false, h2]
        split
        · exact .inl rfl
        · exact .inr ⟨_, rfl⟩
      | rx2Timeout _ _ _ _ hd => exact (noStop hd hst).elim
      | rx2Done _ _ _ _ _ hd => exact (noStop hd hst).elim
    | _ =>
      exfalso
      generalize it.ev = ev at hsh hst
      rw [hop] at hsh
      cases hsh with
      | nothing => simp at hst
      | init => simp at hst
      | sent f d q l _ _ _ _ hq =>
        have hnq := quiet_no_stop hq
        simp [txSetup, hnq] at hst
      | txDone _ _ _ ho => simp at ho
      | window => simp at hst
      | rx1Timeout _ _ _ ho => simp at ho
      | result _ _ _ _ _ _ _ ho => simp at ho

/-- An uplink, the first window timed out. -/
def firstOverOps : List Op := onAirOps ++ [.event 4 (Tests.rxOf []), .timer .rx1, .event 1 (Tests.rxOf [])]

/-- The second window is opened. -/
example : ∃ (log : List Item) (it : Item) (s' : St), Hist Tests.xorEnv (log ++ [it]) s' ∧ stage (trace log) = .rx2 ∧
    it.op = .timer .rx2 ∧ it.ev = [.rx 255 8 0] := by
  have hf : Demo.fine firstOverOps = true := by decide +kernel
  obtain ⟨h1, h2⟩ := Demo.next (op := .timer .rx2) hf (by decide) (by decide +kernel)
  exact ⟨_, _, _, h1, by decide +kernel, h2, by decide +kernel⟩

/-- An idle stack does not listen until something is sent. -/
theorem idle_silent {seg : List Item} {s : St} (h : Hist E (log ++ seg) s) (hi : stage (trace log) = .idle)
    (hn : ∀ x ∈ seg, sentItem x = false) : stage (trace (log ++ seg)) = .idle ∧ ∀ x ∈ seg, listens x.ev = false := by
  revert s hn
  refine snoc_induction (P := fun seg => ∀ {s : St}, Hist E (log ++ seg) s → (∀ x ∈ seg, sentItem x = false) →
    stage (trace (log ++ seg)) = .idle ∧ ∀ x ∈ seg, listens x.ev = false) ?_ ?_ seg
  · intro s _ _
    rw [List.append_nil]
    exact ⟨hi, by simp⟩
  · intro seg x ih s h hn
    rw [← List.append_assoc] at h ⊢
    obtain ⟨s1, h1, -, -, -, hs⟩ := h.last
    obtain ⟨g1, g2⟩ := ih h1 fun y hy => hn y (List.mem_append_left _ hy)
    have hp := phase_of h1 .idle g1
    have hx := hn x (List.mem_append_right _ (List.mem_singleton_self x))
    have key : stage (trace (log ++ seg ++ [x])) = .idle ∧ listens x.ev = false := by
      rw [stage_trace, g1]
      have hsh := step_shape h1.inv hs
      generalize x.ev = ev at hsh
      cases hsh with
      | nothing => exact ⟨rfl, rfl⟩
      | init => exact ⟨rfl, rfl⟩
      | sent f d q l _ hr ho =>
        exfalso
        unfold sentItem at hx
        rcases ho with ⟨a, b, c, d, ho⟩ | ⟨a, b, ho⟩ <;> rw [ho] at hx <;> simp [hr] at hx
      | txDone _ _ _ _ hp' => simp [hp] at hp'
      | window _ _ _ hp' => simp [hp] at hp'
      | rx1Timeout _ _ _ _ hp' => simp [hp] at hp'
      | result _ _ _ _ _ _ _ _ hp' => simp [hp] at hp'
    refine ⟨key.1, fun y hy => ?_⟩
    rcases List.mem_append.1 hy with hy | hy
    · exact g2 y hy
    · rw [List.mem_singleton.1 hy]
      exact key.2

/-- **C141** does not hold of the code: whatever the radio received in the first window, a frame with a bad checksum, one for another device or one with a
wrong MIC, the second window is given up. The radio does not listen any more before something else is sent. -/
theorem C141_cut (h : Hist E (log ++ [it]) s') (ht : stage (trace log) = .rx1) (ho : outcome log it = .crc ∨ ∃ l, outcome log it = .packet l) :
    Ev.stopTimer .rx2 ∈ it.ev ∧ ∀ {seg : List Item} {s : St}, Hist E (log ++ [it] ++ seg) s → (∀ x ∈ seg, sentItem x = false) →
      ∀ x ∈ seg, listens x.ev = false := by
  obtain ⟨s, h1, -, -, -, hs⟩ := h.last
  have hp := phase_of h1 .rx1 ht
  suffices hk : Ev.stopTimer .rx2 ∈ it.ev ∧ stage (trace (log ++ [it])) = .idle from
    ⟨hk.1, fun hh hn => (idle_silent hh hk.2 hn).2⟩
  unfold outcome at ho
  cases hop : it.op with
  | event m o =>
    rw [hop] at ho hs
    simp only [ht, true_or, if_true] at ho
    have h1' : m.toNat % 2 ≠ 1 := fun hx => by simp [hx] at ho
    have h2' : m.toNat / 2 % 2 = 1 := Classical.byContradiction fun hx => by simp [h1', hx] at ho
    rw [stage_trace, ht]
    have hc := step_event h1.inv hs
    have hto : irqRxTimeout m = false := by rw [(irqBits m).2.1]; simpa using h1'
    have hrx : irqRxDone m = true := by rw [(irqBits m).2.2.1]; simpa using h2'
    generalize it.ev = ev at hc ⊢
    cases hc with
    | ignore hi => simp [hp, hto, hrx] at hi
    | txDone _ _ hp' => simp [hp] at hp'
    | rx1Timeout _ _ hm => simp [hto] at hm
    | rx1Done _ ev _ _ _ hd => exact ⟨by simp, hd.stage _⟩
    | rx2Timeout _ _ hp' => simp [hp] at hp'
    | rx2Done _ _ hp' => simp [hp] at hp'
  | _ => rw [hop] at ho; simp at ho

/-- An uplink of the device 11223344 and, in the first window, a frame for the device 55667788. -/
def foreignOps : List Op := onAirOps ++ [.event 4 (Tests.rxOf []), .timer .rx1,
  .event 2 (Tests.rxOf [0x60, 0x88, 0x77, 0x66, 0x55, 0, 1, 0, 1, 2, 3, 4])]

/-- C141 fails in this history: the frame carries another address and the application is told so; the second timer does nothing. -/
theorem C141_foreign : ∃ (log : List Item) (it it2 : Item) (s1 s2 : St), Hist Tests.xorEnv (log ++ [it]) s1 ∧
    Hist Tests.xorEnv (log ++ [it] ++ [it2]) s2 ∧ stage (trace log) = .rx1 ∧
    outcome log it = .packet [0x60, 0x88, 0x77, 0x66, 0x55, 0, 1, 0, 1, 2, 3, 4] ∧ (results it.ev).map (·.1) = [.devAddr] ∧
    Ev.stopTimer .rx2 ∈ it.ev ∧ it2.op = .timer .rx2 ∧ it2.ev = [] := by
  have hf : Demo.fine foreignOps = true := by decide +kernel
  obtain ⟨h1, h2⟩ := Demo.next (op := .timer .rx2) hf (by decide) (by decide +kernel)
  obtain ⟨it, -, hi, h3⟩ := Demo.cut hf 5 (by decide)
  have hd : List.drop (5 + 1) (Demo.items foreignOps) = [] := by decide +kernel
  rw [hd, List.append_nil] at h3
  have hx : ((Demo.items foreignOps)[5]?).map (fun x => (outcome ((Demo.items foreignOps).take 5) x, (results x.ev).map (·.1),
      decide (Ev.stopTimer .rx2 ∈ x.ev))) =
      some (.packet [0x60, 0x88, 0x77, 0x66, 0x55, 0, 1, 0, 1, 2, 3, 4], [.devAddr], true) := by decide +kernel
  rw [hi] at hx
  simp only [Option.map_some, Option.some.injEq, Prod.mk.injEq, decide_eq_true_eq] at hx
  have hh := Demo.hist hf
  have hst : stage (trace ((Demo.items foreignOps).take 5)) = .rx1 := by decide +kernel
  have hev : (Demo.nextItem foreignOps (.timer .rx2)).ev = [] := by decide +kernel
  refine ⟨(Demo.items foreignOps).take 5, it, Demo.nextItem foreignOps (.timer .rx2), Demo.final foreignOps,
    (Demo.nextItem foreignOps (.timer .rx2)).post, ?_, ?_, hst, hx.1, hx.2.1,
    hx.2.2, h2, hev⟩
  · rw [← h3]; exact hh
  · rw [← h3]; exact h1

end Uwan
