import Verif.Lemmas.Payload
import Verif.Props.Secrecy

/-!
# What a message changes (C132)
-/

namespace Uwan
open Spec

variable {E : Env} {log log1 log2 : List Item} {s s1 s2 : St} {ops : List Op}

/-- C132: whatever a device did, it can do with any other messages of the same lengths. The calls return the same and have the same
effects in the same order, except for the encrypted message and the integrity code in the frames that carry them. -/
theorem C132_free (h : Hist E log s) (ho : ops.map sealOp = log.map fun it => sealOp it.op) :
    ∃ log2 s2, Hist E log2 s2 ∧ log2.map (·.op) = ops ∧ log2.map sealed = log.map sealed := by
  obtain ⟨log2, s2, k1, k2, k3, -, -⟩ := hist_sealed h ops ho
  exact ⟨log2, s2, k1, k2, k3⟩

/-- C132: two devices that get the same calls, packets and events but send other messages of the same lengths cannot be told apart by
anything but those messages. -/
theorem C132_hidden (h1 : Hist E log1 s1) (h2 : Hist E log2 s2)
    (ho : (log1.map fun it => sealOp it.op) = log2.map fun it => sealOp it.op) : log1.map sealed = log2.map sealed := by
  obtain ⟨l, t, k1, k2, k3, -, -⟩ := hist_sealed h2 (log1.map (·.op)) (by rw [← ho, List.map_map]; rfl)
  rw [(hist_det h1 k1 k2.symm).1, k3]

/-- C132: a message leaves no trace. When both devices are given the same call with the same arguments, whatever was sent before has no
effect on it: the effects are the same to the last byte. -/
theorem C132_gone (h1 : Hist E log1 s1) (h2 : Hist E log2 s2)
    (ho : (log1.map fun it => sealOp it.op) = log2.map fun it => sealOp it.op) :
    ∀ p ∈ log1.zip log2, p.1.op = p.2.op → p.1.ev = p.2.ev := by
  obtain ⟨l, t, k1, k2, -, k4, -⟩ := hist_sealed h2 (log1.map (·.op)) (by rw [← ho, List.map_map]; rfl)
  rw [(hist_det h1 k1 k2.symm).1]
  exact k4

/-- Two uplinks with a downlink in between; the first carries `pld`. -/
def tellOps (pld : Bytes) : List Op :=
  [.init .eu868, .setSession 0x01020304 0 0 Tests.appKey Tests.appKey, .linkCheckReq, .send 2 pld true 0, .event 4 (Tests.rxOf []), .timer .rx1,
    .event 2 (Tests.rxOf []), .send 3 [7, 7, 7] false 0]

/-- The frames in a list of effects. -/
def toldFrames (ev : List Ev) : List Bytes := ev.filterMap fun | .tx d => some d | _ => none

theorem tell_seal {pld : Bytes} (h : Demo.fine (tellOps pld) = true) :
    ((Demo.items (tellOps pld)).map fun it => sealOp it.op) = (tellOps pld).map sealOp := by
  rw [← Demo.items_map h, List.map_map, Demo.items_map h]
  rfl

theorem tellFine1 : Demo.fine (tellOps [1, 2, 3, 4]) = true := by decide +kernel
theorem tellFine2 : Demo.fine (tellOps [9, 9, 9, 9]) = true := by decide +kernel

-- Two devices, two messages: the frames differ, what the observer sees does not, and neither does the next frame.
example : ∃ (log1 log2 : List Item) (s1 s2 : St), Hist Tests.xorEnv log1 s1 ∧ Hist Tests.xorEnv log2 s2 ∧
    ((log1.map fun it => sealOp it.op) = log2.map fun it => sealOp it.op) ∧ trace log1 ≠ trace log2 ∧
    (toldFrames (trace log1)).length = 2 ∧ (toldFrames (trace log1)).drop 1 = (toldFrames (trace log2)).drop 1 :=
  ⟨_, _, _, _, Demo.hist tellFine1, Demo.hist tellFine2, by rw [tell_seal tellFine1, tell_seal tellFine2]; rfl,
    by decide +kernel, by decide +kernel, by decide +kernel⟩

end Uwan
