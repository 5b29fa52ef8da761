import Verif.Lemmas.Keys
import Verif.Props.Downlink
import Verif.Props.Join

/-!
# Each key is used for its purpose only (C110)

`uses it.ev` are the computations made in the last operation, with keys and complete inputs; `view E log` is the session before it as an
observer reconstructs it.
-/

namespace Uwan
open Spec

variable {E : Env} {log : List Item} {it : Item} {s' : St}

/-- C110: a join-request takes one CMAC under the AppKey, over the request without its MIC. -/
theorem C110_join {r1 r2 : Nat} (h : Hist E (log ++ [it]) s') (hop : it.op = .join r1 r2) (hr : it.ret = .err .no) :
    ∃ f, txs it.ev = [f] ∧ uses it.ev = [.cmac (view E log).appKey (signed f)] := by
  obtain ⟨s, f, d, A⟩ := h.joinSent hop hr
  refine ⟨(buildJoin E s (nonceOf r2)).1, ?_, ?_⟩
  · rw [A.ev, txs_join]
  · rw [A.ev, (view_hist A.hist).appKey]
    have hs : signed (buildJoin E s (nonceOf r2)).1 = _ := signed_append _ _ (by simp [calcMic])
    rw [hs]
    exact (((txSetup_does s d f).append (calcMic_does_plain (E := E) _ _ _ _)).append (tx_does _)).uses

/-- The NwkSKey of the demonstration. -/
def keyN : Block := Vector.replicate 16 0x11
/-- The AppSKey of the demonstration. -/
def keyA : Block := Vector.replicate 16 0x22

/-- A session with different keys, and OTAA keys. -/
def keyOps : List Op :=
  [.init .eu868, .setOtaaKeys Tests.devEui Tests.appEui Tests.appKey, .setSession 0x01020304 5 0 keyN keyA]

example : ∃ (log : List Item) (it : Item) (s' : St) (r1 r2 : Nat), Hist Tests.xorEnv (log ++ [it]) s' ∧ it.op = .join r1 r2 ∧
    it.ret = .err .no ∧ (uses it.ev).length = 1 := by
  have h := Demo.next (ops := keyOps) (op := .join 1 0x12345) (by decide +kernel) trivial (by decide +kernel)
  exact ⟨_, _, _, _, _, h.1, h.2, by decide +kernel, by decide +kernel⟩

/-- C110: an uplink takes the key stream of its payload, under the AppSKey with the blocks of this direction, address and counter, and
one CMAC under the NwkSKey, over B0 and the frame without its MIC. -/
theorem C110_send {p : Byte} {pld : Bytes} {c : Bool} {rnd : Nat} (h : Hist E (log ++ [it]) s') (hop : it.op = .send p pld c rnd)
    (hr : it.ret = .err .no) :
    ∃ f, txs it.ev = [f] ∧ uses it.ev = streamUses (view E log).app 0 (view E log).addr (view E log).up pld.length ++
      [micUse (view E log).nwk 0 (view E log).addr (view E log).up (signed f)] := by
  obtain ⟨s, f, d, A⟩ := h.accepted hop hr
  have hv := view_hist A.hist
  refine ⟨(buildUplink E s p pld c).1, ?_, ?_⟩
  · rw [A.ev, txs_sent]
  · rw [A.ev, hv.app, hv.nwk, hv.addr, hv.up]
    have := (((txSetup_does s d f).append (buildUplink_does (E := E) s p pld c)).append
      (tx_does (buildUplink E s p pld c).1)).uses
    rw [List.append_nil, List.nil_append] at this
    exact this

-- 17 bytes: two blocks and the MIC.
example : ∃ (log : List Item) (it : Item) (s' : St) (f : Bytes), Hist Tests.xorEnv (log ++ [it]) s' ∧
    it.op = .send 3 (List.replicate 17 9) false 0 ∧ it.ret = .err .no ∧
    uses it.ev = [.aes keyA (blockA 0 0x01020304 5 1), .aes keyA (blockA 0 0x01020304 5 2), .cmac keyN f] := by
  have h := Demo.next (ops := keyOps) (op := .send 3 (List.replicate 17 9) false 0) (by decide +kernel) (by decide +kernel) (by decide +kernel)
  exact ⟨_, _, _, (bytesB0 0 0x01020304 5 26 ++ signed ((txs (Demo.nextItem keyOps (.send 3 (List.replicate 17 9) false 0)).ev).headD [])),
    h.1, h.2, by decide +kernel, by decide +kernel⟩

/-- C110: what is computed for a packet received in a data exchange (`dataUses`). -/
theorem C110_data {l : Bytes} (h : Hist E (log ++ [it]) s') (ho : outcome log it = .packet l)
    (hj : (config E log).joining = false) : uses it.ev = dataUses E (view E log) (config E log).down l := by
  obtain ⟨s, m, o, mt, G, s2, ev0, p, ev, R⟩ := h.gotData ho hj
  have hv0 : ViewOf (view E log) (rxSt o { s with phase := .idle }) := (view_hist R.hist).same (by constructor <;> rfl)
  have hc0 : (cfgOf (rxSt o { s with phase := .idle })) = config E log := by rw [← config_hist R.hist]; rfl
  have hd := R.data.does hv0 (by rw [hc0, ← G.bytes])
  rw [hc0, ← G.bytes] at hd
  rw [R.ev]
  exact (end_does R.pre hd).uses

/-- Waiting for a downlink. -/
def keyDl : List Op := keyOps ++ [.send 2 [1] false 0, .event 4 (Tests.rxOf []), .timer .rx1]

-- Accepted on port 7, accepted on port 0, and with a wrong MIC.
example : ∃ (log : List Item) (it : Item) (s' : St) (l : Bytes), Hist Tests.xorEnv (log ++ [it]) s' ∧ outcome log it = .packet l ∧
    (config Tests.xorEnv log).joining = false ∧
    uses it.ev = [micUse keyN 1 0x01020304 1 (signed l), .aes keyA (blockA 1 0x01020304 1 1)] := by
  obtain ⟨h, ho⟩ := Demo.next (ops := keyDl) (op := .event 2 (Tests.rxOf (helloDown.build Tests.xorEnv keyN keyA 0x01020304 1)))
    (by decide +kernel) (by decide +kernel) (by decide +kernel)
  exact ⟨_, _, _, helloDown.build Tests.xorEnv keyN keyA 0x01020304 1, h, by decide +kernel, by decide +kernel, by decide +kernel⟩
example : ∃ (log : List Item) (it : Item) (s' : St) (l : Bytes), Hist Tests.xorEnv (log ++ [it]) s' ∧ outcome log it = .packet l ∧
    (config Tests.xorEnv log).joining = false ∧
    uses it.ev = [micUse keyN 1 0x01020304 1 (signed l), .aes keyN (blockA 1 0x01020304 1 1)] := by
  obtain ⟨h, ho⟩ := Demo.next (ops := keyDl)
    (op := .event 2 (Tests.rxOf (Downlink.build ⟨false, 0, 0, [], some (0, [2])⟩ Tests.xorEnv keyN keyA 0x01020304 1)))
    (by decide +kernel) (by decide +kernel) (by decide +kernel)
  exact ⟨_, _, _, Downlink.build ⟨false, 0, 0, [], some (0, [2])⟩ Tests.xorEnv keyN keyA 0x01020304 1, h, by decide +kernel,
    by decide +kernel, by decide +kernel⟩
example : ∃ (log : List Item) (it : Item) (s' : St) (l : Bytes), Hist Tests.xorEnv (log ++ [it]) s' ∧ outcome log it = .packet l ∧
    (config Tests.xorEnv log).joining = false ∧ uses it.ev = [micUse keyN 1 0x01020304 1 (signed l)] := by
  obtain ⟨h, ho⟩ := Demo.next (ops := keyDl) (op := .event 2 (Tests.rxOf (helloDown.build Tests.xorEnv keyA keyA 0x01020304 1)))
    (by decide +kernel) (by decide +kernel) (by decide +kernel)
  exact ⟨_, _, _, helloDown.build Tests.xorEnv keyA keyA 0x01020304 1, h, by decide +kernel, by decide +kernel, by decide +kernel⟩

/-- C110: what is computed for a packet received in a join exchange (`joinUses`): all of it under the AppKey. -/
theorem C110_accept {l : Bytes} (h : Hist E (log ++ [it]) s') (ho : outcome log it = .packet l)
    (hj : (config E log).joining = true) : uses it.ev = joinUses E (view E log) l := by
  obtain ⟨s, m, o, mt, p, G, s2, ev0, ev, R⟩ := h.gotJoin ho hj
  have hv0 : ViewOf (view E log) (rxSt o { s with phase := .idle }) := (view_hist R.hist).same (by constructor <;> rfl)
  have hd := R.join.does hv0
  rw [← G.bytes] at hd
  rw [R.ev]
  exact (end_does R.pre hd).uses

/-- Waiting for a join-accept. -/
def keyJoin : List Op := keyOps ++ [.join 0 0x4321, .event 4 (Tests.rxOf []), .timer .rx1]
/-- A join-accept with a CFList. -/
def keyAccept : Bytes := JoinAccept.build ⟨1, 2, 3, 0, 1, List.replicate 16 0⟩ Tests.xorEnv Tests.xorEnv.aes Tests.appKey

example : ∃ (log : List Item) (it : Item) (s' : St), Hist Tests.xorEnv (log ++ [it]) s' ∧ outcome log it = .packet keyAccept ∧
    (config Tests.xorEnv log).joining = true ∧ (uses it.ev).length = 5 ∧
    (uses it.ev).drop 3 = [.aes Tests.appKey (keyInput 1 1 2 0x4321), .aes Tests.appKey (keyInput 2 1 2 0x4321)] := by
  obtain ⟨h, ho⟩ := Demo.next (ops := keyJoin) (op := .event 2 (Tests.rxOf keyAccept)) (by decide +kernel) (by decide +kernel) (by decide +kernel)
  exact ⟨_, _, _, h, by decide +kernel, by decide +kernel, by decide +kernel, by decide +kernel⟩

/-- C110: nothing else computes anything. -/
theorem C110_nothing (h : Hist E (log ++ [it]) s') (h1 : ∀ r1 r2, it.op = .join r1 r2 → it.ret ≠ .err .no)
    (h2 : ∀ p pld c rnd, it.op = .send p pld c rnd → it.ret ≠ .err .no) (h3 : ∀ l, outcome log it ≠ .packet l) : uses it.ev = [] := by
  have hres : ∀ r ∈ results it.ev, r.1 = .rxTimeout ∨ r.1 = .rxCrc := by
    have := h.end_of
    cases hc : outcome log it with
    | none => rw [hc] at this; intro r hr; rw [show results it.ev = [] from this] at hr; cases hr
    | timeout => rw [hc] at this; intro r hr; rw [this.1] at hr; rw [List.mem_singleton.mp hr]; exact .inl rfl
    | crc => rw [hc] at this; intro r hr; rw [this.1] at hr; rw [List.mem_singleton.mp hr]; exact .inr rfl
    | packet l => exact absurd hc (h3 l)
  obtain ⟨s, hs0, -, -, -, hs⟩ := h.last
  exact (step_does hs0.inv hs h1 h2 hres).uses

-- A send that is refused because an exchange is running.
example : ∃ (log : List Item) (it : Item) (s' : St), Hist Tests.xorEnv (log ++ [it]) s' ∧ it.op = .send 2 [1] false 0 ∧
    it.ret ≠ .err .no ∧ (uses (trace log)).length = 2 := by
  obtain ⟨h, ho⟩ := Demo.next (ops := keyDl) (op := .send 2 [1] false 0) (by decide +kernel) (by decide +kernel) (by decide +kernel)
  exact ⟨_, _, _, h, ho, by decide +kernel, by decide +kernel⟩

end Uwan
