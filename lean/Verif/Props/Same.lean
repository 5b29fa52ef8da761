import Verif.Lemmas.Payload
import Verif.Props.Channels
import Verif.Props.Downlink

/-!
# No hidden state (C113)
-/

namespace Uwan
open Spec

variable {E : Env} {log1 log2 seg : List Item} {s1 s2 s1' : St}

/-- Histories that agree on what can be seen lead to states that cannot be told apart. -/
theorem twin_hist (h1 : Hist E log1 s1) (h2 : Hist E log2 s2) (hv : view E log1 = view E log2)
    (hc : config E log1 = config E log2) (hs : stage (trace log1) = stage (trace log2))
    (hr : stage (trace log1) = .tx → (radio (trace log1)).pp = (radio (trace log2)).pp) : Twin s1 s2 := by
  have hp : s1.phase = s2.phase := phaseStage_inj (by rw [← stage_hist h1, ← stage_hist h2, hs])
  have he := state_eq (Hist.inv h1) (Hist.inv h2) (view_hist h1) (by rw [hv]; exact view_hist h2)
    (by rw [config_hist h1, config_hist h2, hc]) hp
  obtain ⟨-, -, ⟨f1, t1, -⟩, -⟩ := obs_hist h1
  obtain ⟨-, -, ⟨f2, t2, -⟩, -⟩ := obs_hist h2
  exact ⟨put s2.frame s2.pp s1, s2.chan.maxCount, .mk'
    (by rw [(Hist.inv h1).frame, (Hist.inv h2).frame])
    (fun hn => by
      obtain ⟨a1, a2, a3, a4⟩ := f1 hn
      obtain ⟨b1, b2, b3, b4⟩ := f2 (by rw [← hp]; exact hn)
      exact ⟨b1.trans a1.symm, b2.trans a2.symm, b3.trans a3.symm, b4.trans a4.symm⟩)
    (fun ht => by
      have e := hr (by rw [stage_hist h1, ht]; rfl)
      rw [(t1 ht).1, (t2 (by rw [← hp]; exact ht)).1] at e
      exact (Option.some.inj e).symm), he⟩

/-- C113, the part that holds: take two histories after which session and keys, settings and the stage of the exchange are the same
(and, while a transmission is on the air, its radio settings). Whatever one device can do from then on the other can do too: for every
continuation of the first there is one of the second with the same calls, results and effects, up to the random number that picks the
channel. Missing are empty packets, see `C113_empty`, and the same random number, see `C113_high_water`. -/
theorem C113_same_partial (h1 : Hist E log1 s1) (h2 : Hist E log2 s2) (hv : view E log1 = view E log2)
    (hc : config E log1 = config E log2) (hs : stage (trace log1) = stage (trace log2))
    (hr : stage (trace log1) = .tx → (radio (trace log1)).pp = (radio (trace log2)).pp)
    (hseg : Seg E s1 seg s1') (hne : ∀ it ∈ seg, nonEmpty it) :
    ∃ seg2 s2', Seg E s2 seg2 s2' ∧ seg2.map seen = seg.map seen := by
  obtain ⟨seg2, s2', k1, k2, -⟩ := seg_twin h1 h2 (twin_hist h1 h2 hv hc hs hr) hseg hne
  exact ⟨seg2, s2', k1, k2⟩

/-- C113, with empty packets: they make no difference either if the last frame each of the two devices sent or read began with the same
byte. Missing is the same random number, see `C113_high_water`. -/
theorem C113_lead_partial (h1 : Hist E log1 s1) (h2 : Hist E log2 s2) (hv : view E log1 = view E log2)
    (hc : config E log1 = config E log2) (hs : stage (trace log1) = stage (trace log2))
    (hr : stage (trace log1) = .tx → (radio (trace log1)).pp = (radio (trace log2)).pp) (hl : lead log1 = lead log2)
    (hseg : Seg E s1 seg s1') : ∃ seg2 s2', Seg E s2 seg2 s2' ∧ seg2.map seen = seg.map seen := by
  obtain ⟨seg2, s2', k1, k2, -⟩ := seg_twin_lead h1 h2 (twin_hist h1 h2 hv hc hs hr) hl hseg
  exact ⟨seg2, s2', k1, k2⟩

/-- A device that sent one uplink and is now listening in the first window. -/
def sentOps (pld : Bytes) (c : Bool) : List Op :=
  [.init .eu868, .setSession 0x01020304 0 0 Tests.appKey Tests.appKey, .send 2 pld c 0, .event 4 (Tests.rxOf []), .timer .rx1]
/-- The same, after both windows stayed silent. -/
def silentOps (pld : Bytes) (c : Bool) : List Op :=
  sentOps pld c ++ [.event 1 (Tests.rxOf []), .timer .rx2, .event 1 (Tests.rxOf [])]

theorem Demo.one {ops : List Op} {op : Op} (hv : op.Valid)
    (hs : (match step Tests.xorEnv (Demo.final ops) op with | .ok _ => true | .error _ => false) = true) :
    Seg Tests.xorEnv (Demo.final ops) [Demo.nextItem ops op] (Demo.nextItem ops op).post ∧ (Demo.nextItem ops op).op = op := by
  unfold Demo.nextItem
  cases hx : step Tests.xorEnv (Demo.final ops) op with
  | error u => rw [hx] at hs; simp at hs
  | ok x =>
    obtain ⟨r, s', ev⟩ := x
    exact ⟨.snoc .nil hv hx, rfl⟩

-- Two devices that sent different messages. The frame buffers differ, the next uplink is the same.
example : ∃ (log1 log2 seg : List Item) (s1 s2 s1' : St), Hist Tests.xorEnv log1 s1 ∧ Hist Tests.xorEnv log2 s2 ∧
    view Tests.xorEnv log1 = view Tests.xorEnv log2 ∧ config Tests.xorEnv log1 = config Tests.xorEnv log2 ∧
    stage (trace log1) = stage (trace log2) ∧ stage (trace log1) ≠ .tx ∧ Seg Tests.xorEnv s1 seg s1' ∧ (∀ it ∈ seg, nonEmpty it) ∧
    (txs (trace seg)).length = 1 ∧ s1 ≠ s2 := by
  have h1 := Demo.hist (ops := silentOps [1] false) (by decide +kernel)
  have h2 := Demo.hist (ops := silentOps [2, 3] true) (by decide +kernel)
  obtain ⟨v, c⟩ := observed_eq h1 h2 (by decide +kernel)
  have g := Demo.one (ops := silentOps [1] false) (op := .send 2 [9] false 1) (by decide) (by decide +kernel)
  refine ⟨_, _, _, _, _, _, h1, h2, v, c, by decide +kernel, by decide +kernel, g.1, ?_, by decide +kernel, by decide +kernel⟩
  intro it hit m o ho
  rw [List.mem_singleton.mp hit, g.2] at ho
  cases ho

-- Different unconfirmed messages, then an empty packet in the first window.
example : ∃ (log1 log2 seg : List Item) (s1 s2 s1' : St), Hist Tests.xorEnv log1 s1 ∧ Hist Tests.xorEnv log2 s2 ∧
    view Tests.xorEnv log1 = view Tests.xorEnv log2 ∧ config Tests.xorEnv log1 = config Tests.xorEnv log2 ∧
    stage (trace log1) = stage (trace log2) ∧ stage (trace log1) ≠ .tx ∧ lead log1 = lead log2 ∧ lead log1 = some 0x40 ∧
    Seg Tests.xorEnv s1 seg s1' ∧ (results (trace seg)).map (·.1) = [.msgLen] ∧ s1 ≠ s2 := by
  have h1 := Demo.hist (ops := sentOps [1] false) (by decide +kernel)
  have h2 := Demo.hist (ops := sentOps [2, 3] false) (by decide +kernel)
  obtain ⟨v, c⟩ := observed_eq h1 h2 (by decide +kernel)
  have g := Demo.one (ops := sentOps [1] false) (op := .event 2 (Tests.rxOf [])) (by decide) (by decide +kernel)
  exact ⟨_, _, _, _, _, _, h1, h2, v, c, by decide +kernel, by decide +kernel, by decide +kernel, by decide +kernel, g.1,
    by decide +kernel, by decide +kernel⟩

/-- C113 does not hold of the code, first: which channel is used depends on what has been enabled before. Both devices have channels 0
and 1 enabled and agree on everything else; the first had all channels disabled at some time. With the same random number the one
sends on channel 0, the other on channel 1. -/
theorem C113_high_water : ∃ (log1 log2 : List Item) (it1 it2 : Item) (s1 s2 s1' s2' : St), Hist Tests.xorEnv log1 s1 ∧
    Hist Tests.xorEnv log2 s2 ∧ view Tests.xorEnv log1 = view Tests.xorEnv log2 ∧
    config Tests.xorEnv log1 = config Tests.xorEnv log2 ∧ trace log1 = trace log2 ∧
    Hist Tests.xorEnv (log1 ++ [it1]) s1' ∧ Hist Tests.xorEnv (log2 ++ [it2]) s2' ∧ it1.op = it2.op ∧
    (radio it1.ev).txFreq = 868100000 ∧ (radio it2.ev).txFreq = 868300000 := by
  let a : List Op := [.init .eu868, .enableChannel 0 false, .enableChannel 1 false, .enableChannel 2 false, .enableChannel 0 true,
    .enableChannel 1 true]
  let b : List Op := [.init .eu868, .enableChannel 2 false]
  have h1 := Demo.hist (ops := a) (by decide +kernel)
  have h2 := Demo.hist (ops := b) (by decide +kernel)
  obtain ⟨v, c⟩ := observed_eq h1 h2 (by decide +kernel)
  obtain ⟨k1, k2⟩ := Demo.next (ops := a) (op := .send 2 [9] false 3) (by decide +kernel) (by decide) (by decide +kernel)
  obtain ⟨k3, k4⟩ := Demo.next (ops := b) (op := .send 2 [9] false 3) (by decide +kernel) (by decide) (by decide +kernel)
  exact ⟨_, _, _, _, _, _, _, _, h1, h2, v, c, by decide +kernel, k1, k3, k2.trans k4.symm, by decide +kernel, by decide +kernel⟩

/-- C113 does not hold of the code, second: an empty packet is reported with a message type taken from the frame that was in the buffer
before. Both devices wait in the first window after an uplink; one uplink was confirmed and the other not. -/
theorem C113_empty : ∃ (log1 log2 : List Item) (it1 it2 : Item) (s1 s2 s1' s2' : St), Hist Tests.xorEnv log1 s1 ∧
    Hist Tests.xorEnv log2 s2 ∧ view Tests.xorEnv log1 = view Tests.xorEnv log2 ∧
    config Tests.xorEnv log1 = config Tests.xorEnv log2 ∧ stage (trace log1) = .rx1 ∧ stage (trace log2) = .rx1 ∧
    radio (trace log1) = radio (trace log2) ∧
    Hist Tests.xorEnv (log1 ++ [it1]) s1' ∧ Hist Tests.xorEnv (log2 ++ [it2]) s2' ∧ it1.op = it2.op ∧
    outcome log1 it1 = .packet [] ∧ (results it1.ev).map (·.2.1) = [2] ∧ (results it2.ev).map (·.2.1) = [4] := by
  have h1 := Demo.hist (ops := sentOps [1] false) (by decide +kernel)
  have h2 := Demo.hist (ops := sentOps [1] true) (by decide +kernel)
  obtain ⟨v, c⟩ := observed_eq h1 h2 (by decide +kernel)
  obtain ⟨k1, k2⟩ := Demo.next (ops := sentOps [1] false) (op := .event 2 (Tests.rxOf [])) (by decide +kernel) (by decide) (by decide +kernel)
  obtain ⟨k3, k4⟩ := Demo.next (ops := sentOps [1] true) (op := .event 2 (Tests.rxOf [])) (by decide +kernel) (by decide) (by decide +kernel)
  refine ⟨_, _, _, _, _, _, _, _, h1, h2, v, c, by decide +kernel, by decide +kernel, by decide +kernel, k1, k3, k2.trans k4.symm, ?_, by decide +kernel, by decide +kernel⟩
  unfold outcome
  rw [k2]
  decide +kernel

end Uwan
