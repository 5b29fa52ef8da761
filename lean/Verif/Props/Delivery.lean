import Verif.Lemmas.Delivery
import Verif.Props.Payload

/-!
# What a received message decides (C134)
-/

namespace Uwan
open Spec

variable {E : Env} {log log1 log2 : List Item} {s s1 s2 : St}

/-- C134: the contents of the messages received decide nothing. Two devices that get the same calls and events, and packets which differ
only in the messages and integrity codes of data downlinks but get the same verdicts, return the same and have the same effects in the
same order, except for the message handed to the application and the bytes the integrity code is computed over. -/
theorem C134_passed (h1 : Hist E log1 s1) (h2 : Hist E log2 s2) (ho : log1.map sealRxIn = log2.map sealRxIn) :
    log1.map sealRxItem = log2.map sealRxItem := (hist_alike h1 h2 ho).1

/-- C134: a received message leaves no trace: operations with the same arguments have the same effects to the last byte, whatever
messages were received before. -/
theorem C134_gone (h1 : Hist E log1 s1) (h2 : Hist E log2 s2) (ho : log1.map sealRxIn = log2.map sealRxIn) :
    ∀ p ∈ log1.zip log2, p.1.op = p.2.op → p.1.ev = p.2.ev := (hist_alike h1 h2 ho).2.1

/-- An uplink, a downlink that carries `msg` on `port`, and another uplink. -/
def toldOps (port : Byte) (msg : Bytes) : List Op :=
  [.init .eu868, .setSession 0x01020304 0 0 Tests.appKey Tests.appKey, .send 2 [1] true 0, .event 4 (Tests.rxOf []), .timer .rx1,
    .event 2 (Tests.rxOf ([0x60, 4, 3, 2, 1, 0x20, 1, 0, port] ++ msg ++ [4, 5, 6, 7])), .send 3 [7, 7, 7] false 0]

theorem told_seal {p : Byte} {a b : Bytes} (ha : Demo.fine (toldOps p a) = true) (hb : Demo.fine (toldOps p b) = true)
    (ho : (toldOps p a).map sealRxOp = (toldOps p b).map sealRxOp)
    (hr : (Demo.items (toldOps p a)).map (fun it => report it.ev) = (Demo.items (toldOps p b)).map fun it => report it.ev) :
    (Demo.items (toldOps p a)).map sealRxIn = (Demo.items (toldOps p b)).map sealRxIn := by
  have key : ∀ l : List Item, l.map sealRxIn = ((l.map (·.op)).map sealRxOp).zip (l.map fun it => report it.ev) := by
    intro l
    induction l with
    | nil => rfl
    | cons x l ih => simp only [List.map_cons, List.zip_cons_cons, ← ih]; rfl
  rw [key, key, Demo.items_map ha, Demo.items_map hb, ho, hr]

theorem toldFine1 : Demo.fine (toldOps 7 [1, 2, 3, 4, 5]) = true := by decide +kernel
theorem toldFine2 : Demo.fine (toldOps 7 [9, 9, 9, 9, 9]) = true := by decide +kernel
theorem toldFine3 : Demo.fine (toldOps 0 [3, 0x35, 0, 0, 1]) = true := by decide +kernel
theorem toldFine4 : Demo.fine (toldOps 0 [9, 9, 9, 9, 9]) = true := by decide +kernel

-- Two devices receive two messages: both are accepted, the application is handed different bytes, and nothing else differs.
example : ∃ (log1 log2 : List Item) (s1 s2 : St), Hist Tests.xorEnv log1 s1 ∧ Hist Tests.xorEnv log2 s2 ∧
    log1.map sealRxIn = log2.map sealRxIn ∧ trace log1 ≠ trace log2 ∧ some Err.no ∈ log1.map fun it => report it.ev :=
  ⟨_, _, _, _, Demo.hist toldFine1, Demo.hist toldFine2, told_seal toldFine1 toldFine2 rfl (by decide +kernel),
    by decide +kernel, by decide +kernel⟩

-- The same on port 0, where the specification puts commands: whatever the bytes decipher to, they are not obeyed.
example : ∃ (log1 log2 : List Item) (s1 s2 : St), Hist Tests.xorEnv log1 s1 ∧ Hist Tests.xorEnv log2 s2 ∧
    log1.map sealRxIn = log2.map sealRxIn ∧ trace log1 ≠ trace log2 ∧ some Err.no ∈ log1.map fun it => report it.ev :=
  ⟨_, _, _, _, Demo.hist toldFine3, Demo.hist toldFine4, told_seal toldFine3 toldFine4 rfl (by decide +kernel),
    by decide +kernel, by decide +kernel⟩

end Uwan
