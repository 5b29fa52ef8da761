import Verif.Spec.Network
import Verif.Props.Uplink
import Verif.Props.Forged
import Verif.Props.Join

/-! Lemmas for the theorems about a device and its network server. -/

namespace Uwan
open Spec

variable {E : Env} {log : List Item} {it : Item} {s' : St}

theorem fullCount_ahead {next gap : Nat} (hg : gap < 65536) : fullCount next ((next + gap) % 65536) = next + gap := by
  unfold fullCount; omega

theorem uplinkOf_some {m : Message} (h : uplinkOf E log it = some m) : ∃ port pld c rnd, it.op = .send port pld c rnd ∧
    it.ret = .err .no ∧ m = ⟨c, (config E log).queue, if pld = [] then none else some port.toNat, pld⟩ := by
  unfold uplinkOf at h
  split at h
  · next port pld c rnd ho =>
    split at h
    · next hr => cases h; exact ⟨port, pld, c, rnd, ho, hr, rfl⟩
    · cases h
  · cases h

theorem sentCount_cons (it : Item) (seg : List Item) :
    sentCount (it :: seg) = (if (uplinkOf E log it).isSome then 1 else 0) + sentCount seg := by
  unfold sentCount
  rw [List.countP_cons, Nat.add_comm]
  congr 1
  unfold uplinkOf
  cases it.op <;> simp only <;> first | rfl | skip
  by_cases hr : it.ret = .err .no
  · simp [hr]
  · simp [hr]

/-- The server accepts the frame of an uplink that is up to 65535 counters ahead. -/
theorem recv_uplink (h : Hist E (log ++ [it]) s') {n : Server} {gap : Nat} {m : Message} {l : Bytes}
    (hu : uplinkOf E log it = some m) (ht : l ∈ txs it.ev)
    (h1 : n.nwk = (view E log).nwk) (h2 : n.app = (view E log).app) (h3 : n.addr = (view E log).addr)
    (h4 : (view E log).up = n.next + gap) (hg : gap < 65536) (hp : ∀ pld c r, it.op ≠ .send 0 pld c r) :
    n.recv E l = some (m, { n with next := n.next + gap + 1 }) := by
  obtain ⟨port, pld, c, rnd, hop, hr, rfl⟩ := uplinkOf_some hu
  obtain ⟨s, hl, -⟩ := h.last
  have hlt := up_lt hl
  obtain ⟨fr, f, g1, g2, g3, -, g4, g5, g6, -, g7, g8, -, g9⟩ := C01_uplink_frame h hop hr
  obtain ⟨fr', f', e1, e2, e3⟩ := C02_payload_decrypts h hop hr
  rw [g1] at e1; cases e1
  rw [g2] at e2; cases e2
  rw [g1, List.mem_singleton] at ht
  subst ht
  rw [h4] at g6 g9 e3 hlt
  unfold Server.recv
  rw [g2]
  simp only [g6, fullCount_ahead hg]
  have hport : f.port ≠ some 0 := by
    rw [g8]
    split
    · simp
    · intro hc
      simp only [Option.some.injEq] at hc
      exact hp pld c rnd (by rw [hop]; congr 1; exact BitVec.eq_of_toNat_eq hc)
  rw [if_pos ⟨by rw [g3]; split <;> simp, g4, by rw [g5, h3], hlt, by rw [g9, h1, h3]⟩, if_neg hport, h2, h3, e3, g7, g8, g3]
  simp only [Option.some.injEq, Prod.mk.injEq, and_true, Message.mk.injEq]
  cases c <;> decide

theorem recv_foreign {n : Server} {l : Bytes} (hf : Foreign n.addr l) : n.recv E l = none := by
  unfold Server.recv
  split
  · rfl
  · next f hp => exact if_neg fun hc => hf f hp ⟨hc.1, hc.2.1, hc.2.2.1⟩

theorem serve_air {addr gap : Nat} {seg : List Item} {rx : List Bytes} {ms : List Message} (ha : Air E addr log gap seg rx ms) :
    ∀ {n : Server} {s' : St}, addr = n.addr → Hist E (log ++ seg) s' → (∀ x ∈ seg, newSession x = false) →
      (∀ x ∈ seg, ∀ pld c r, x.op ≠ .send 0 pld c r) →
      n.nwk = (view E log).nwk → n.app = (view E log).app → n.addr = (view E log).addr →
      (view E log).up = (n.next + gap) % 2 ^ 32 → gap < 65536 → n.next + gap + sentCount seg ≤ 2 ^ 32 → n.serve E rx = ms := by
  have hmove : ∀ {log : List Item} {it : Item} {seg : List Item} {s' : St} {n : Server} {k : Nat}, Hist E (log ++ it :: seg) s' →
      newSession it = false → n.nwk = (view E log).nwk → n.app = (view E log).app → n.addr = (view E log).addr →
      (view E log).up = k % 2 ^ 32 →
      Hist E (log ++ [it] ++ seg) s' ∧ n.nwk = (view E (log ++ [it])).nwk ∧ n.app = (view E (log ++ [it])).app ∧
        n.addr = (view E (log ++ [it])).addr ∧
        (view E (log ++ [it])).up = (k + if (uplinkOf E log it).isSome then 1 else 0) % 2 ^ 32 := by
    intro log it seg s' n k h hn h1 h2 h3 h4
    have h' : Hist E (log ++ [it] ++ seg) s' := by simpa using h
    obtain ⟨s1, hp, -⟩ := Hist.prefix (a := log ++ [it]) h'
    obtain ⟨k1, k2, k3⟩ := view_keep (E := E) log [it] (by simpa using hn)
    have k4 := view_up (E := E) log [it] (by simpa using hn)
    rw [Nat.mod_eq_of_lt (up_lt hp), sentCount_cons (E := E) (log := log), h4] at k4
    refine ⟨h', h1.trans k1.symm, h2.trans k2.symm, h3.trans k3.symm, ?_⟩
    rw [k4]
    simp [sentCount]
  induction ha with
  | done log gap => intros; rfl
  | foreign hf ha ih =>
    intro n s' e h hn hp h1 h2 h3 h4 hg hb
    subst e
    unfold Server.serve
    rw [recv_foreign hf]
    exact ih rfl h hn hp h1 h2 h3 h4 hg hb
  | @other log gap it seg rx ms hu ha ih =>
    intro n s' e h hn hp h1 h2 h3 h4 hg hb
    obtain ⟨k0, k1, k2, k3, k4⟩ := hmove h (hn it (by simp)) h1 h2 h3 h4
    rw [sentCount_cons (E := E) (log := log), hu] at hb
    rw [hu] at k4
    exact ih e k0 (fun x hx => hn x (by simp [hx])) (fun x hx => hp x (by simp [hx])) k1 k2 k3 k4 hg (by simpa using hb)
  | @lost log gap it seg rx ms m hu hg' ha ih =>
    intro n s' e h hn hp h1 h2 h3 h4 hg hb
    obtain ⟨k0, k1, k2, k3, k4⟩ := hmove h (hn it (by simp)) h1 h2 h3 h4
    rw [sentCount_cons (E := E) (log := log), hu] at hb
    rw [hu] at k4
    exact ih e k0 (fun x hx => hn x (by simp [hx])) (fun x hx => hp x (by simp [hx])) k1 k2 k3 k4 hg'
      (by simp only [Option.isSome_some, if_true] at hb; omega)
  | @heard log gap it seg l rx ms m hu ht ha ih =>
    intro n s' e h hn hp h1 h2 h3 h4 hg hb
    obtain ⟨k0, k1, k2, k3, k4⟩ := hmove h (hn it (by simp)) h1 h2 h3 h4
    rw [sentCount_cons (E := E) (log := log), hu] at hb
    simp only [Option.isSome_some, if_true] at hb
    rw [Nat.mod_eq_of_lt (by omega)] at h4
    obtain ⟨s1, hpre, -⟩ := Hist.prefix (a := log ++ [it]) k0
    rw [hu] at k4
    unfold Server.serve
    rw [recv_uplink hpre hu ht h1 h2 h3 h4 hg (hp it (by simp))]
    simp only [List.cons.injEq, true_and]
    exact ih e k0 (fun x hx => hn x (by simp [hx])) (fun x hx => hp x (by simp [hx])) k1 k2 k3 k4 (by omega)
      (by simp only; omega)

/-! ### Downlinks -/

/-- No join is pending, and none is started. -/
theorem joining_next (h : Hist E (log ++ [it]) s') (hj : (config E log).joining = false) (hop : ∀ a b, it.op ≠ .join a b) :
    (config E (log ++ [it])).joining = false := by
  obtain ⟨s, h1, -, -, -, hs⟩ := h.last
  have e0 : s.joinState = false := by rw [← hj, ← config_hist h1]; rfl
  rw [← config_hist h]
  show s'.joinState = false
  have hi := Hist.inv h1
  by_cases hcf : it.op.isCfg = true
  · rw [(step_cfg hcf hs).2.joinState]; exact e0
  cases ho : it.op with
  | init rg =>
    rw [ho] at hs
    simp only [step, Except.ok.injEq, Prod.mk.injEq] at hs
    rw [← hs.2.1, uwanInit_eq]; exact e0
  | join r1 r2 => exact absurd ho (hop r1 r2)
  | send p l c rnd =>
    rw [ho] at hs
    obtain ⟨e, -, hcs⟩ := step_send hi hs
    generalize it.ev = ev at *
    cases hcs with
    | state => exact e0
    | channel => exact e0
    | len => exact e0
    | sent f d hp => unfold sentSt; rw [(adr_keeps _).2]; exact e0
  | event m o =>
    rw [ho] at hs
    have hcs := step_event hi hs
    generalize it.ev = ev at *
    cases hcs with
    | ignore => exact e0
    | txDone => exact e0
    | rx1Timeout => exact e0
    | rx1Done _ _ _ _ _ hdl => exact hdl.dl.2
    | rx2Timeout _ _ _ _ hdl => exact hdl.dl.2
    | rx2Done _ _ _ _ _ hdl => exact hdl.dl.2
  | timer id =>
    rw [ho] at hs
    obtain ⟨rfl, -⟩ := step_timer hs
    exact e0
  | _ => rw [ho] at hcf; exact absurd rfl hcf

theorem delivered_cons (x : Item) (seg : List Item) : delivered (x :: seg) = delivered [x] ++ delivered seg := by
  simp [delivered]

theorem told_sky {n : Server} {down : Nat} {seg : List Item} {Ds : List Downlink} (hd : Sky E n log down seg Ds) :
    ∀ {s' : St}, Hist E (log ++ seg) s' → (∀ x ∈ seg, newSession x = false) → (∀ x ∈ seg, ∀ a b, x.op ≠ .join a b) →
      n.nwk = (view E log).nwk → n.app = (view E log).app → n.addr = (view E log).addr → (config E log).joining = false →
      (config E log).down = down → delivered seg = Ds.map Downlink.told := by
  have hrej : ∀ {log : List Item} {it : Item} {seg : List Item} {s' : St}, Hist E (log ++ it :: seg) s' → newSession it = false →
      (∀ r ∈ results it.ev, r.1 ≠ .no ∧ r.1 ≠ .msgMic) →
      (view E (log ++ [it])).nwk = (view E log).nwk ∧ (view E (log ++ [it])).app = (view E log).app ∧
      (view E (log ++ [it])).addr = (view E log).addr ∧ (config E (log ++ [it])).down = (config E log).down ∧
      delivered [it] = [] := by
    intro log it seg s' h hn hr
    obtain ⟨s1, h1, -⟩ := Hist.prefix (a := log ++ [it]) (b := seg) (by simpa using h)
    obtain ⟨k1, k2, k3, k4⟩ := kept_seg (log := log) (seg := [it]) h1 (by simpa using hn) (by simpa using hr)
    refine ⟨k1, k2, k3, k4, ?_⟩
    unfold delivered
    simp only [List.flatMap_cons, List.flatMap_nil, List.append_nil, List.filterMap_eq_nil_iff]
    intro r hr'
    exact if_neg (hr r hr').1
  induction hd with
  | done log down => intros; rfl
  | @nothing log down it seg Ds ho hd ih =>
    intro s' h hn hop h1 h2 h3 hj hdn
    have h' : Hist E (log ++ [it] ++ seg) s' := by simpa using h
    obtain ⟨s1, hp, -⟩ := Hist.prefix (a := log ++ [it]) h'
    have hv := C27_verdict hp
    have hres : ∀ r ∈ results it.ev, r.1 ≠ .no ∧ r.1 ≠ .msgMic := by
      cases hout : outcome log it with
      | none => rw [hout] at hv; simp only at hv; rw [hv]; simp
      | timeout => rw [hout] at hv; simp only at hv; rw [hv]; simp
      | crc => rw [hout] at hv; simp only at hv; rw [hv]; simp
      | packet l => exact absurd hout (ho l)
    obtain ⟨k1, k2, k3, k4, k5⟩ := hrej h (hn it (by simp)) hres
    rw [delivered_cons, k5]
    exact ih h' (fun x hx => hn x (by simp [hx])) (fun x hx => hop x (by simp [hx])) (h1.trans k1.symm) (h2.trans k2.symm)
      (h3.trans k3.symm) (joining_next hp hj (hop it (by simp))) (k4.trans hdn)
  | @foreign log down it seg Ds l ho hf hd ih =>
    intro s' h hn hop h1 h2 h3 hj hdn
    have h' : Hist E (log ++ [it] ++ seg) s' := by simpa using h
    obtain ⟨s1, hp, -⟩ := Hist.prefix (a := log ++ [it]) h'
    obtain ⟨s, m, o, mt, G, -⟩ := hp.gotData ho hj
    have hver : verdict E (view E log) (config E log).down l ≠ .no ∧ verdict E (view E log) (config E log).down l ≠ .msgMic := by
      unfold verdict
      by_cases c1 : l.length < 12
      · rw [if_pos c1]; decide
      rw [if_neg c1]
      by_cases c2 : isDataDown l = true
      rotate_left
      · rw [if_pos (by simp [c2])]; decide
      rw [if_neg (by simp [c2])]
      rw [if_pos]
      · decide
      · rcases hf with hf | hf | hf
        · exact absurd hf c1
        · rw [c2] at hf; cases hf
        · rw [← h3]; exact hf
    have hres : ∀ r ∈ results it.ev, r.1 ≠ .no ∧ r.1 ≠ .msgMic := by
      rw [G.results]; simpa using hver
    obtain ⟨k1, k2, k3, k4, k5⟩ := hrej h (hn it (by simp)) hres
    rw [delivered_cons, k5]
    exact ih h' (fun x hx => hn x (by simp [hx])) (fun x hx => hop x (by simp [hx])) (h1.trans k1.symm) (h2.trans k2.symm)
      (h3.trans k3.symm) (joining_next hp hj (hop it (by simp))) (k4.trans hdn)
  | @genuine log down it seg Ds D cnt ho hf hs hd ih =>
    intro s' h hn hop h1 h2 h3 hj hdn
    have h' : Hist E (log ++ [it] ++ seg) s' := by simpa using h
    obtain ⟨s1, hp, -⟩ := Hist.prefix (a := log ++ [it]) h'
    rw [h1, h2, h3] at ho
    rw [← hdn] at hs
    obtain ⟨m, o, mt, g1, g2, g3, g4⟩ := C28_genuine hp D cnt ho hj hf hs
    obtain ⟨k1, k2, k3⟩ := view_keep (E := E) log [it] (by simpa using hn it (by simp))
    rw [delivered_cons, List.map_cons]
    have hone : delivered [it] = [D.told] := by
      unfold delivered
      simp only [List.flatMap_cons, List.flatMap_nil, List.append_nil, g2]
      unfold Downlink.shown Downlink.told
      cases D.body with
      | none => simp [g3]
      | some x => obtain ⟨p, l⟩ := x; simp [g3]
    rw [hone]
    simp only [List.singleton_append, List.cons.injEq, true_and]
    exact ih h' (fun x hx => hn x (by simp [hx])) (fun x hx => hop x (by simp [hx])) (h1.trans k1.symm) (h2.trans k2.symm)
      (h3.trans k3.symm) (joining_next hp hj (hop it (by simp))) (by rw [← config_hist hp]; exact g4)

/-! ### Joining -/

/-- What stays while a join is pending. -/
theorem pending_next (h : Hist E (log ++ [it]) s') (hr : results it.ev = [])
    (hk : ∀ d a k, it.op ≠ .setOtaaKeys d a k) (hn : ∀ a b, it.op = .join a b → it.ret ≠ .err .no) (hj : (config E log).joining = true) :
    (config E (log ++ [it])).joining = true ∧ (view E (log ++ [it])).appKey = (view E log).appKey ∧
    (view E (log ++ [it])).nonce = (view E log).nonce := by
  obtain ⟨s, h1, -, -, -, hs⟩ := h.last
  have e0 : s.joinState = true := by rw [← hj, ← config_hist h1]; rfl
  have hi := Hist.inv h1
  refine ⟨?_, ?_⟩
  · rw [← config_hist h]
    show s'.joinState = true
    by_cases hcf : it.op.isCfg = true
    · rw [(step_cfg hcf hs).2.joinState]; exact e0
    cases ho : it.op with
    | init rg =>
      rw [ho] at hs
      simp only [step, Except.ok.injEq, Prod.mk.injEq] at hs
      rw [← hs.2.1, uwanInit_eq]; exact e0
    | join r1 r2 =>
      rw [ho] at hs
      obtain ⟨e, he, hcs⟩ := step_join hi hs
      generalize it.ev = ev at *
      cases hcs with
      | state => exact e0
      | channel => exact e0
      | sent f d hp => rfl
    | send p l c rnd =>
      rw [ho] at hs
      obtain ⟨e, -, hcs⟩ := step_send hi hs
      generalize it.ev = ev at *
      cases hcs with
      | state => exact e0
      | channel => exact e0
      | len => exact e0
      | sent f d hp => unfold sentSt; rw [(adr_keeps _).2]; exact e0
    | event m o =>
      rw [ho] at hs
      have hcs := step_event hi hs
      generalize it.ev = ev at *
      cases hcs with
      | ignore => exact e0
      | txDone => exact e0
      | rx1Timeout => exact e0
      | rx1Done _ ev1 _ _ _ hdl => exact absurd hr hdl.some_result
      | rx2Timeout _ _ _ _ hdl => exact absurd hr hdl.some_result
      | rx2Done _ _ _ _ _ hdl => exact absurd hr hdl.some_result
    | timer id =>
      rw [ho] at hs
      obtain ⟨rfl, -⟩ := step_timer hs
      exact e0
    | _ => rw [ho] at hcf; exact absurd rfl hcf
  · rw [view_snoc]
    unfold View.next
    cases ho : it.op with
    | setOtaaKeys d a k => exact absurd ho (hk d a k)
    | join a b => simp only; rw [if_neg (hn a b ho)]; exact ⟨rfl, rfl⟩
    | send => simp only; split <;> exact ⟨rfl, rfl⟩
    | event m o => simp only; split <;> exact ⟨rfl, rfl⟩
    | _ => exact ⟨rfl, rfl⟩

theorem pending_seg {seg : List Item} : ∀ {log : List Item} {s' : St}, Hist E (log ++ seg) s' →
    (∀ x ∈ seg, results x.ev = [] ∧ (∀ d a k, x.op ≠ .setOtaaKeys d a k) ∧ (∀ a b, x.op = .join a b → x.ret ≠ .err .no)) →
    (config E log).joining = true →
    (config E (log ++ seg)).joining = true ∧ (view E (log ++ seg)).appKey = (view E log).appKey ∧
    (view E (log ++ seg)).nonce = (view E log).nonce := by
  induction seg with
  | nil => intro log s' h _ hj; rw [List.append_nil]; exact ⟨hj, rfl, rfl⟩
  | cons x seg ih =>
    intro log s' h hx hj
    have h' : Hist E (log ++ [x] ++ seg) s' := by simpa using h
    obtain ⟨s1, hp, -⟩ := Hist.prefix (a := log ++ [x]) h'
    obtain ⟨x1, x2, x3⟩ := hx x (by simp)
    obtain ⟨k1, k2, k3⟩ := pending_next hp x1 x2 x3 hj
    obtain ⟨i1, i2, i3⟩ := ih h' (fun y hy => hx y (by simp [hy])) k1
    rw [show log ++ x :: seg = log ++ [x] ++ seg by simp]
    exact ⟨i1, i2.trans k2, i3.trans k3⟩

/-- Where the nonce is in a join-request. -/
theorem request_nonce (key : Block) (a d : Bytes) (nonce : Nat) (ha : a.length = 8) (hd : d.length = 8) (hn : nonce < 65536) :
    leNat (((joinRequest E key a d nonce).drop 17).take 2) = nonce := by
  unfold joinRequest
  simp only
  rw [List.append_assoc ([0] ++ a ++ d), List.drop_left' (by simp [ha, hd]), List.take_left' (by simp [leBytes]), leNat_leBytes]
  exact Nat.mod_eq_of_lt hn

/-- The server can read a join-request. -/
theorem joinServer_request (key : Block) (J : JoinAccept) (a d : Bytes) (nonce : Nat) (ha : a.length = 8) (hd : d.length = 8)
    (hn : nonce < 65536) : joinServer E key J (joinRequest E key a d nonce) =
      some ⟨sessionKey E key 1 J.appNonce J.netId nonce, sessionKey E key 2 J.appNonce J.netId nonce, J.devAddr, 0⟩ := by
  unfold joinServer
  rw [request_nonce key a d nonce ha hd hn, if_pos]
  refine ⟨joinRequest_length (E := E) key a d nonce ha hd, rfl, ?_⟩
  have hm : ([0] ++ a ++ d ++ leBytes 2 nonce : Bytes).length = 19 := by simp [ha, hd, leBytes]
  unfold joinRequest
  simp only
  rw [List.drop_left' hm, List.take_left' hm]

end Uwan
