import Verif.Lemmas.Safety
import Verif.Props.Downlink

/-!
# Data rates, undefined behaviour and crypto contexts (C60-C62)
-/

namespace Uwan
open Spec

variable {E : Env} {log : List Item}

/-! ### C60 -/

/-- C60, for arguments below 256, which includes all enumerators: the data rates for uplinks, for the second window and to fall back
to are DR0..DR5, so is what the radio is set to whenever it transmits or receives, and no operation reads outside a table.
Missing: larger arguments are cut to 8 bits before they are checked (`C60_dr256`). -/
theorem C60_rates_partial {s : St} (h : Hist E log s) :
    s.session.dr ≤ 5 ∧ s.defaultDr ≤ 5 ∧ s.rx2Dr ≤ 5 ∧ s.rx1Offset.toNat ≤ 5 ∧ directed (radio []) (trace log) = true ∧
    ∀ op : Op, op.Valid → step E s op ≠ .error .oob := by
  have hi := h.inv
  refine ⟨Nat.le_of_lt_succ hi.dr, Nat.le_of_lt_succ hi.defaultDr, Nat.le_of_lt_succ hi.rx2Dr, Nat.le_of_lt_succ hi.rx1Offset,
    (obs_hist h).2.2.2, fun op hv he => ?_⟩
  rcases step_ok E hi hv with ⟨r, s', ev, h1, -⟩ | ⟨-, h1⟩ <;> rw [h1] at he <;> cases he

example : ∃ log s, Hist Tests.xorEnv log s ∧ s.session.dr = 5 ∧ s.defaultDr = 5 ∧ (txs (trace log)).length = 1 :=
  ⟨_, _, Demo.hist (ops := dlOps ++ [.setDr 5, .setDr 6, .setDr 255]) (by decide +kernel), by decide +kernel, by decide +kernel, by decide +kernel⟩

/-- C60 fails for `uwan_set_dr(256)`: it is accepted as DR0 would be, and the next join request reads outside the table. -/
theorem C60_dr256 : ∃ log s s', Hist Tests.xorEnv log s ∧ step Tests.xorEnv s (.setDr 256) = .ok (.unit, s', []) ∧ s'.defaultDr = 256 ∧
    step Tests.xorEnv s' (.join 0 0) = .error .oob :=
  ⟨_, _, _, Demo.hist (ops := [.init .eu868, .setOtaaKeys (Vector.replicate 8 1) (Vector.replicate 8 2) Tests.appKey]) (by decide +kernel), rfl, rfl, by decide +kernel⟩

/-! ### C61 -/

/-- A shift of a byte with the top bit set by 24, undefined in C99, can only happen while one of these packets is processed: a packet in
a data exchange with such a byte, or one in a join exchange that decrypts to such a byte. -/
def HotPacket (E : Env) (log : List Item) (o : Oracle) : Prop :=
  ∃ b ∈ (if (config E log).joining then joinClear E (view E log).appKey (o.rxData.take 255) else o.rxData.take 255), 128 ≤ b.toNat

/-- C61, what holds: after every history, every operation ends, without access outside an array, through a null pointer or other
undefined behaviour. Missing: the end of a transmission after an accepted DeviceTimeReq when the application has no
MAC handlers registered (`C61_null_callback`), and shifts of a byte above 127 by 24 (`C61_shift`). -/
theorem C61_defined_partial {s : St} (h : Hist E log s) {op : Op} (hv : op.Valid) :
    (∃ r s' ev, step E s op = .ok (r, s', ev) ∧ (Ev.ubShift ∈ ev → ∃ m o, op = .event m o ∧ HotPacket E log o)) ∨
    (step E s op = .error .nullDeref ∧ stage (trace log) = .tx ∧ (∃ m o, op = .event m o ∧ m.toNat / 4 % 2 = 1) ∧
      (config E log).stamp = true ∧ (config E log).cbs = none) := by
  rcases step_ok E h.inv hv with ⟨r, s', ev, h1, -⟩ | ⟨ht, h1⟩
  · refine .inl ⟨r, s', ev, h1, fun hm => ?_⟩
    obtain ⟨m, o, ho, b, hb, hh⟩ := step_shift h.inv h1 hm
    refine ⟨m, o, ho, b, ?_, hh⟩
    rw [← config_hist h, (view_hist h).appKey]
    exact hb
  · refine .inr ⟨h1, ?_⟩
    cases op with
    | event m o =>
      obtain ⟨t1, t2, t3, t4⟩ := ht
      refine ⟨by rw [stage_hist h, t1]; rfl, ⟨m, o, rfl, ?_⟩, by rw [← config_hist h]; exact t3, by rw [← config_hist h]; exact t4⟩
      rw [(irqBits m).1] at t2
      simpa using t2
    | _ => exact ht.elim

/-- C61: with registered handlers there is no exception but the shifts. -/
theorem C61_handlers_partial {s : St} (h : Hist E log s) {op : Op} (hv : op.Valid) (hc : (config E log).cbs ≠ none) :
    ∃ r s' ev, step E s op = .ok (r, s', ev) := by
  rcases C61_defined_partial h hv with ⟨r, s', ev, h1, -⟩ | ⟨-, -, -, -, h1⟩
  · exact ⟨r, s', ev, h1⟩
  · exact absurd h1 hc

example : ∃ log s, Hist Tests.xorEnv log s ∧ (config Tests.xorEnv log).cbs ≠ none ∧ (config Tests.xorEnv log).stamp = true ∧
    stage (trace log) = .tx :=
  ⟨_, _, Demo.hist (ops := [.init .eu868, .setSession 0x01020304 0 0 Tests.appKey Tests.appKey, .macSetHandlers (some ⟨false, false, false, false⟩),
    .deviceTimeReq, .send 2 [1] false 0]) (by decide +kernel), by decide +kernel, by decide +kernel, by decide +kernel⟩

/-- C61 fails without registered handlers: `uwan_mac_device_time_req`, an uplink, and the end of its transmission calls through a null
pointer. -/
theorem C61_null_callback : ∃ log s o, Hist Tests.xorEnv log s ∧ step Tests.xorEnv s (.event 4 o) = .error .nullDeref :=
  ⟨_, _, Tests.rxOf [], Demo.hist (ops := [.init .eu868, .setSession 0x01020304 0 0 Tests.appKey Tests.appKey, .deviceTimeReq, .send 2 [1] false 0])
    (by decide +kernel), by decide +kernel⟩

/-- C61 fails for a packet with a device address from 0x80000000 on, also one for another device: a byte above 127 is shifted by 24 as
a signed 32-bit number. -/
theorem C61_shift : ∃ log it s' o, Hist Tests.xorEnv (log ++ [it]) s' ∧ it.op = .event 2 o ∧ o.rxData.length = 12 ∧ Ev.ubShift ∈ it.ev := by
  obtain ⟨h, ho⟩ := Demo.next (ops := dlOps) (op := .event 2 (Tests.rxOf [0x60, 4, 3, 2, 0x80, 0, 1, 0, 0, 0, 0, 0])) dlFine trivial (by decide +kernel)
  exact ⟨_, _, _, _, h, ho, rfl, by decide +kernel⟩

/-! ### C62 -/

/-- C62: in every history each created context is used, finished and deleted before the next one is created, and none is open at the
end of an operation. -/
theorem C62_contexts {s : St} (h : Hist E log s) : crypto (trace log) = .none ∧ ∀ it ∈ log, crypto it.ev = .none := by
  have key : ∀ it ∈ log, crypto it.ev = .none := by
    intro it hit
    obtain ⟨a, b, rfl⟩ := List.append_of_mem hit
    rw [List.append_cons] at h
    obtain ⟨s1, h1, -⟩ := Seg.split h (a ++ [it]) b rfl
    obtain ⟨s0, h0, -, -, -, hs⟩ := Hist.last h1
    exact step_bal h0.inv hs
  refine ⟨?_, key⟩
  have : ∀ l : List Item, (∀ it ∈ l, crypto it.ev = .none) → Bal (trace l) := by
    intro l
    induction l with
    | nil => intro _; rfl
    | cons x l ih =>
      intro hx
      show Bal (x.ev ++ trace l)
      exact Bal.append (hx x List.mem_cons_self) (ih fun y hy => hx y (List.mem_cons_of_mem _ hy))
  exact this log key

-- An exchange with an encrypted uplink and downlink.
example : ∃ log s, Hist Tests.xorEnv log s ∧ ((trace log).filter fun | .aesNew _ => true | .cmacNew _ => true | _ => false).length = 4 :=
  ⟨_, _, Demo.hist (ops := dlOps ++ [.event 2 (Tests.rxOf (dlFrame helloDown 9))]) (by decide +kernel), by decide +kernel⟩

end Uwan
