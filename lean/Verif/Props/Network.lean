import Verif.Lemmas.Network
import Verif.Props.Exchange
import Verif.Tests.NetworkTests

/-!
# A device and its network server (C103-C105)

The server (`Spec/Network.lean`) knows the session, the frames that reach it and nothing else. `Air` says which uplinks get through and
what else is heard, `Sky` what the device hears.
-/

namespace Uwan
open Spec

variable {E : Env} {log : List Item} {s' : St}

/-- C103: a server that knows the keys, address and first counter of a session gets, out of whatever is heard, exactly the messages passed
to `uwan_send_frame` in the uplinks heard, in order, with the MAC commands that were pending; however many uplinks are lost, as long as it
is never 65536 in a row and the counter does not pass 2^32. `it0` is the operation that starts the session; the application uses
no port 0 (C26). -/
theorem C103_uplinks {it0 : Item} {seg : List Item} (h : Hist E (log ++ [it0] ++ seg) s') (h0 : newSession it0 = true)
    (hseg : ∀ x ∈ seg, newSession x = false) (hport : ∀ x ∈ seg, ∀ pld c r, x.op ≠ .send 0 pld c r)
    (hcnt : firstCount it0 + sentCount seg ≤ 2 ^ 32) (rx : List Bytes) (ms : List Message)
    (ha : Air E (view E (log ++ [it0])).addr (log ++ [it0]) 0 seg rx ms) :
    let v := view E (log ++ [it0])
    Server.serve E ⟨v.nwk, v.app, v.addr, firstCount it0⟩ rx = ms := by
  intro v
  obtain ⟨s0, hp0, -⟩ := Hist.prefix (a := log ++ [it0]) h
  have hup := view_first hp0 h0
  have hlt := up_lt hp0
  exact serve_air ha rfl h hseg hport rfl rfl rfl (by rw [hup, Nat.add_zero, Nat.mod_eq_of_lt (by rw [← hup]; exact hlt)]) (by decide)
    (by rw [Nat.add_zero]; exact hcnt)

/-- An exchange without an answer. -/
def mute (op : Op) : List Op := [op, .event 4 (Tests.rxOf []), .timer .rx1, .event 1 (Tests.rxOf []), .timer .rx2, .event 1 (Tests.rxOf [])]
/-- Three uplinks across the roll-over of the low 16 bits; a link check is asked for before the last one. -/
def talkOps : List Op := mute (.send 2 [1, 2, 3] false 0) ++ mute (.send 3 [] true 0) ++ mute (.send 9 [4] false 0) ++ [.linkCheckReq] ++
  mute (.send 5 [6, 7] true 0)
/-- A session starting at counter 65534. -/
def talkStart : List Op := [.init .eu868, .setSession 0x11223344 65534 0 Tests.appKey Tests.appKey]

-- An uplink is lost, the empty one is refused by the stack, and the others arrive.
example : ∃ (log : List Item) (it0 : Item) (seg : List Item) (s' : St) (rx : List Bytes) (ms : List Message),
    Hist Tests.xorEnv (log ++ [it0] ++ seg) s' ∧ newSession it0 = true ∧ (∀ x ∈ seg, newSession x = false) ∧
    (∀ x ∈ seg, ∀ pld c r, x.op ≠ .send 0 pld c r) ∧ firstCount it0 + sentCount seg ≤ 2 ^ 32 ∧
    Air Tests.xorEnv (view Tests.xorEnv (log ++ [it0])).addr (log ++ [it0]) 0 seg rx ms ∧
    ms = [⟨false, [], some 9, [4]⟩, ⟨true, [2], some 5, [6, 7]⟩] ∧ rx.length = 2 := by
  have hf : Demo.fine (talkStart ++ talkOps) = true := by decide +kernel
  obtain ⟨i0, o0, g0, e0⟩ := Demo.cut hf 1 (by decide)
  have h := Demo.hist hf
  rw [e0] at h
  have hl := Demo.take_succ g0
  have ha := Demo.heardOf_air Tests.xorEnv (view Tests.xorEnv ((Demo.items (talkStart ++ talkOps)).take 2)).addr
    ((Demo.items (talkStart ++ talkOps)).drop 2) ((Demo.items (talkStart ++ talkOps)).take 2) [false, true, true] 0 (by decide +kernel)
  refine ⟨_, i0, _, _, _, _, h, by unfold newSession; rw [o0]; rfl, by decide +kernel, ?_, ?_, (by rw [hl]; exact ha), by decide +kernel, by decide +kernel⟩
  · intro x hx pld c r hop
    have : ∀ x ∈ (Demo.items (talkStart ++ talkOps)).drop 2, (match x.op with | .send 0 _ _ _ => true | _ => false) = false := by
      decide +kernel
    have := this x hx
    rw [hop] at this
    simp at this
  · have : firstCount i0 = 65534 := by unfold firstCount; rw [o0]; rfl
    rw [this]; decide +kernel

/-- C104: the downlinks a server sends in a session, with counters in step with each other, are all handed to the application when heard:
code UWAN_ERR_NO, right message type, port and payload, in order, once each, and nothing else is; whatever goes on besides in between (uplinks,
settings, time-outs, CRC errors, frames for others). No join is started in this time and none was pending. Forged frames for
this address are excluded (C30, C33). -/
theorem C104_downlinks {it0 : Item} {seg : List Item} (h : Hist E (log ++ [it0] ++ seg) s')
    (hseg : ∀ x ∈ seg, newSession x = false) (hj : (config E (log ++ [it0])).joining = false) (hop : ∀ x ∈ seg, ∀ a b, x.op ≠ .join a b)
    (next : Nat) (Ds : List Downlink)
    (hd : let v := view E (log ++ [it0]); Sky E ⟨v.nwk, v.app, v.addr, next⟩ (log ++ [it0]) (config E (log ++ [it0])).down seg Ds) :
    delivered seg = Ds.map Downlink.told :=
  told_sky hd h hseg hop rfl rfl rfl hj rfl

/-- An exchange answered in the first window. -/
def answered (op : Op) (l : Bytes) : List Op := [op, .event 4 (Tests.rxOf []), .timer .rx1, .event 2 (Tests.rxOf l)]
/-- Three downlinks, the second one for another device; the third a roll-over ahead. -/
def hearOps : List Op :=
  answered (.send 2 [1] false 0) (dlFrame helloDown 65000) ++ answered (.send 2 [1] false 0) foreignDown ++
    mute (.send 2 [2] false 0) ++ answered (.send 2 [1] false 0) (dlFrame ⟨true, 0, 0, [6], none⟩ 66000)
/-- The device of `dlFrame`. -/
def hearStart : List Op := [.init .eu868, .setSession 0x01020304 0 0 Tests.appKey Tests.appKey]

example : ∃ (log : List Item) (it0 : Item) (seg : List Item) (s' : St) (Ds : List Downlink),
    Hist Tests.xorEnv (log ++ [it0] ++ seg) s' ∧ (∀ x ∈ seg, newSession x = false) ∧
    (config Tests.xorEnv (log ++ [it0])).joining = false ∧ (∀ x ∈ seg, ∀ a b, x.op ≠ .join a b) ∧
    (let v := view Tests.xorEnv (log ++ [it0]);
      Sky Tests.xorEnv ⟨v.nwk, v.app, v.addr, 0⟩ (log ++ [it0]) (config Tests.xorEnv (log ++ [it0])).down seg Ds) ∧
    Ds.map Downlink.told = [(3, 7, some [0x68, 0x69]), (5, 0, none)] := by
  have hf : Demo.fine (hearStart ++ hearOps) = true := by decide +kernel
  obtain ⟨i0, o0, g0, e0⟩ := Demo.cut hf 1 (by decide)
  have h := Demo.hist hf
  rw [e0] at h
  have hl := Demo.take_succ g0
  have hs := Demo.skyOk_sky Tests.xorEnv
    (let v := view Tests.xorEnv ((Demo.items (hearStart ++ hearOps)).take 2); ⟨v.nwk, v.app, v.addr, 0⟩)
    ((Demo.items (hearStart ++ hearOps)).drop 2) ((Demo.items (hearStart ++ hearOps)).take 2)
    (config Tests.xorEnv ((Demo.items (hearStart ++ hearOps)).take 2)).down
    [(helloDown, 65000), (⟨true, 0, 0, [6], none⟩, 66000)] (by decide +kernel)
  refine ⟨_, i0, _, _, [helloDown, ⟨true, 0, 0, [6], none⟩], h, by decide +kernel, by rw [hl]; decide +kernel, ?_, by rw [hl]; exact hs,
    by decide +kernel⟩
  · intro x hx a b hop
    have : ∀ x ∈ (Demo.items (hearStart ++ hearOps)).drop 2, (match x.op with | .join _ _ => true | _ => false) = false := by
      decide +kernel
    have := this x hx
    rw [hop] at this
    simp at this

/-- C105: over-the-air activation, both ends. The device sends a join-request `j`; the server, which has only the frame and the AppKey,
accepts it and starts a session; the device hears the join-accept in `a`. Then both ends have the same session: every uplink heard later is
understood (C103), and every downlink heard later is delivered (C104). -/
theorem C105_join {j a : Item} {seg1 seg2 : List Item} (h : Hist E (log ++ [j] ++ seg1 ++ [a] ++ seg2) s') (r1 r2 : Nat)
    (hop : j.op = .join r1 r2) (hr : j.ret = .err .no) (req : Bytes) (hreq : req ∈ txs j.ev)
    (h1 : ∀ x ∈ seg1, results x.ev = [] ∧ (∀ d a k, x.op ≠ .setOtaaKeys d a k) ∧ (∀ a b, x.op = .join a b → x.ret ≠ .err .no))
    (dec : Block → Block → Block) (hdec : ∀ k b, E.aes k (dec k b) = b) (J : JoinAccept) (hJ1 : J.appNonce < 2 ^ 24)
    (hJ2 : J.netId < 2 ^ 24) (hJ3 : J.devAddr < 2 ^ 32) (hJ4 : J.cfList.length = 0 ∨ J.cfList.length = 16)
    (ho : outcome (log ++ [j] ++ seg1) a = .packet (J.build E dec (view E log).appKey))
    (h2 : ∀ x ∈ seg2, newSession x = false) :
    ∃ n, joinServer E (view E log).appKey J req = some n ∧ (results a.ev).map (fun r => (r.1, r.2.1)) = [(.no, 1)] ∧
      ((∀ x ∈ seg2, ∀ pld c r, x.op ≠ .send 0 pld c r) → sentCount seg2 ≤ 2 ^ 32 →
        ∀ rx ms, Air E J.devAddr (log ++ [j] ++ seg1 ++ [a]) 0 seg2 rx ms → n.serve E rx = ms) ∧
      ((∀ x ∈ seg2, ∀ a b, x.op ≠ .join a b) →
        ∀ Ds, Sky E n (log ++ [j] ++ seg1 ++ [a]) 0 seg2 Ds → delivered seg2 = Ds.map Downlink.told) := by
  obtain ⟨sa, ha, -⟩ := Hist.prefix (a := log ++ [j] ++ seg1 ++ [a]) h
  obtain ⟨s1, hs1, -⟩ := ha.last
  obtain ⟨sj, hsj, -⟩ := Hist.prefix (a := log ++ [j]) hs1
  obtain ⟨s0, hs0, -⟩ := hsj.last
  have hv0 := view_hist hs0
  obtain ⟨q1, -, -⟩ := C38_join_request hsj r1 r2 hop hr
  rw [q1, List.mem_singleton] at hreq
  -- what the device remembers of the request
  have hjn : (config E (log ++ [j])).joining = true := by
    rw [config_snoc, Cfg.next, hop]; simp only; rw [if_pos hr]
  have hkey : (view E (log ++ [j])).appKey = (view E log).appKey := by
    rw [view_snoc, View.next, hop]; simp only; rw [if_pos hr]
  have hnon : (view E (log ++ [j])).nonce = r2 % 65536 := by
    rw [view_snoc, View.next, hop]; simp only; rw [if_pos hr]
    show nonceSent j.ev = _
    rw [nonceSent, q1]
    exact request_nonce _ _ _ _ (by rw [hv0.appEui]; simp) (by rw [hv0.devEui]; simp) (Nat.mod_lt _ (by decide))
  obtain ⟨p1, p2, p3⟩ := pending_seg hs1 h1 hjn
  rw [hkey] at p2
  rw [hnon] at p3
  have hS := C39_session ha dec hdec J hJ1 hJ2 hJ3 hJ4 p1 (by rw [p2]; exact ho)
  rw [p2, p3] at hS
  obtain ⟨k1, k2, -⟩ := hS
  have hva := view_hist ha
  have hsrv := joinServer_request (E := E) (view E log).appKey J (view E log).appEui (view E log).devEui.reverse (r2 % 65536)
    (by rw [hv0.appEui]; simp) (by rw [hv0.devEui]; simp) (Nat.mod_lt _ (by decide))
  rw [← hreq] at hsrv
  have hnw : (view E (log ++ [j] ++ seg1 ++ [a])).nwk = sessionKey E (view E log).appKey 1 J.appNonce J.netId (r2 % 65536) := by
    rw [hva.nwk, k2]
  have hap : (view E (log ++ [j] ++ seg1 ++ [a])).app = sessionKey E (view E log).appKey 2 J.appNonce J.netId (r2 % 65536) := by
    rw [hva.app, k2]
  have had : (view E (log ++ [j] ++ seg1 ++ [a])).addr = J.devAddr := by
    rw [hva.addr, k2]; exact Nat.mod_eq_of_lt hJ3
  have hup : (view E (log ++ [j] ++ seg1 ++ [a])).up = 0 := by
    rw [hva.up, k2]; rfl
  have hdn : (config E (log ++ [j] ++ seg1 ++ [a])).down = 0 := by
    rw [← config_hist ha]
    show sa.session.fCntDown.toNat = 0
    rw [k2]; rfl
  have hend : (config E (log ++ [j] ++ seg1 ++ [a])).joining = false := by
    cases hres : results a.ev with
    | nil => rw [hres] at k1; cases k1
    | cons r rs =>
      have hm : r ∈ results a.ev := by rw [hres]; simp
      unfold results at hm
      obtain ⟨e, he, h'⟩ := List.mem_filterMap.mp hm
      split at h'
      · obtain ⟨-, -, -, -, -, hc, -⟩ := C36_callback ha _ _ _ he
        exact hc
      · cases h'
  refine ⟨_, hsrv, k1, ?_, ?_⟩
  · intro hport hcnt rx ms hair
    exact serve_air hair rfl h h2 hport hnw.symm hap.symm had.symm (by rw [hup]; rfl) (by decide) (by simpa using hcnt)
  · intro hnj Ds hsky
    exact told_sky hsky h h2 hnj hnw.symm hap.symm had.symm hend hdn

/-- The device joins, is refused another try while the first is pending, and gets its answer. -/
def actOps : List Op :=
  [.init .eu868, .setOtaaKeys Tests.devEui Tests.appEui Tests.appKey, .join 1 0x12345, .event 4 (Tests.rxOf []), .join 2 3, .timer .rx1,
    .event 2 (Tests.rxOf (demoAccept.build Tests.xorEnv Tests.xorEnv.aes Tests.appKey))]
/-- Two uplinks; the second is answered. -/
def chatOps (n : Server) : List Op :=
  mute (.send 2 [1, 2, 3] false 0) ++
    answered (.send 9 [4] true 0) (helloDown.build Tests.xorEnv n.nwk n.app n.addr 0)
/-- The server of the demonstration. -/
def actServer : Server :=
  ((joinServer Tests.xorEnv Tests.appKey demoAccept
    (joinRequest Tests.xorEnv Tests.appKey Tests.appEui.toList Tests.devEui.toList.reverse 0x2345))).getD ⟨Tests.appKey, Tests.appKey, 0, 0⟩

-- Both directions work in one session after a join.
example : ∃ (log : List Item) (j a : Item) (seg1 seg2 : List Item) (s' : St) (req : Bytes) (rx : List Bytes) (ms : List Message)
    (Ds : List Downlink) (n : Server),
    Hist Tests.xorEnv (log ++ [j] ++ seg1 ++ [a] ++ seg2) s' ∧ j.op = .join 1 0x12345 ∧ j.ret = .err .no ∧ req ∈ txs j.ev ∧
    (∀ x ∈ seg1, results x.ev = [] ∧ (∀ d a k, x.op ≠ .setOtaaKeys d a k) ∧ (∀ a b, x.op = .join a b → x.ret ≠ .err .no)) ∧
    (∀ k b, Tests.xorEnv.aes k (Tests.xorEnv.aes k b) = b) ∧
    outcome (log ++ [j] ++ seg1) a = .packet (demoAccept.build Tests.xorEnv Tests.xorEnv.aes (view Tests.xorEnv log).appKey) ∧
    (∀ x ∈ seg2, newSession x = false) ∧ joinServer Tests.xorEnv (view Tests.xorEnv log).appKey demoAccept req = some n ∧
    Air Tests.xorEnv demoAccept.devAddr (log ++ [j] ++ seg1 ++ [a]) 0 seg2 rx ms ∧ ms.length = 2 ∧
    Sky Tests.xorEnv n (log ++ [j] ++ seg1 ++ [a]) 0 seg2 Ds ∧ Ds.length = 1 := by
  have hx : ∀ k b : Block, Tests.xorEnv.aes k (Tests.xorEnv.aes k b) = b := by
    intro k b
    show Vector.zipWith _ (Vector.zipWith _ b k) k = b
    ext i hi
    simp [BitVec.xor_assoc]
  have hf : Demo.fine (actOps ++ chatOps actServer) = true := by decide +kernel
  obtain ⟨j, oj, gj, ej⟩ := Demo.cut hf 2 (by decide)
  obtain ⟨a, oa, ga, ea⟩ := Demo.cut hf 6 (by decide)
  have h := Demo.hist hf
  have hj := Demo.take_succ gj
  have ha := Demo.take_succ ga
  generalize hI : Demo.items (actOps ++ chatOps actServer) = I at *
  have hmid : I.take 2 ++ [j] ++ (I.take 6).drop 3 = I.take 6 := by
    rw [hj, show I.take (2 + 1) = (I.take 6).take 3 by rw [List.take_take]; rfl, List.take_append_drop]
  have hall : I.take 2 ++ [j] ++ (I.take 6).drop 3 ++ [a] = I.take 7 := by rw [hmid, ha]
  have jr : (I[2]?.map fun x => (x.ret, txs x.ev)) = some (.err .no, [joinRequest Tests.xorEnv Tests.appKey Tests.appEui.toList
      Tests.devEui.toList.reverse 0x2345]) := by rw [← hI]; decide +kernel
  rw [gj] at jr
  simp only [Option.map_some, Option.some.injEq, Prod.mk.injEq] at jr
  have hao : (I[6]?.map fun x => outcome (I.take 6) x) = some (.packet (demoAccept.build Tests.xorEnv Tests.xorEnv.aes Tests.appKey)) := by
    rw [← hI]; decide +kernel
  rw [ga] at hao
  simp only [Option.map_some, Option.some.injEq] at hao
  have hk : (view Tests.xorEnv (I.take 2)).appKey = Tests.appKey := by rw [← hI]; decide +kernel
  have hair := Demo.heardOf_air Tests.xorEnv demoAccept.devAddr (I.drop 7) (I.take 7) [true, true] 0 (by rw [← hI]; decide +kernel)
  have hsky := Demo.skyOk_sky Tests.xorEnv actServer (I.drop 7) (I.take 7) 0 [(helloDown, 0)] (by rw [← hI]; decide +kernel)
  refine ⟨I.take 2, j, a, (I.take 6).drop 3, I.drop 7, Demo.final (actOps ++ chatOps actServer), _,
    (Demo.heardOf Tests.xorEnv (I.take 7) (I.drop 7) [true, true]).1, (Demo.heardOf Tests.xorEnv (I.take 7) (I.drop 7) [true, true]).2,
    [helloDown], actServer, ?_, oj, jr.1, by rw [jr.2]; exact List.mem_singleton.mpr rfl, ?_, hx,
    ?_, ?_, ?_, ?_, ?_, by rw [hall]; exact hsky, rfl⟩
  · rw [hall, List.take_append_drop]; exact h
  · have hchk : ∀ x ∈ (I.take 6).drop 3, results x.ev = [] ∧ (match x.op with | .setOtaaKeys .. => false | .join .. => x.ret != .err .no | _ => true) = true := by
      rw [← hI]; decide +kernel
    intro x hx
    obtain ⟨c1, c2⟩ := hchk x hx
    refine ⟨c1, ?_, ?_⟩
    · intro d a k ho
      rw [ho] at c2; simp at c2
    · intro a b ho
      rw [ho] at c2; simpa using c2
  · rw [hmid, hk]; exact hao
  · rw [← hI]; decide +kernel
  · rw [hk]; decide +kernel
  · rw [hall]; exact hair
  · rw [← hI]; decide +kernel

end Uwan
