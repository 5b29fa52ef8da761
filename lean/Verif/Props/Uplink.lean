import Verif.Lemmas.Exchange
import Verif.Tests.Demo

/-!
# Uplinks: frame layout, encryption, length limits, counters (C01-C07)

`Hist E (log ++ [it]) s'` is an arbitrary history whose last operation is `it`. `view E log` and `config E log` are what an
outside observer knows before that operation (`Spec/Session.lean`, `Spec/Config.lean`).
-/

namespace Uwan
open Spec

variable {E : Env} {log : List Item} {it : Item} {s' : St} {port : Byte} {pld : Bytes} {c : Bool} {rnd : Nat}

/-- C01: an accepted uplink hands exactly one frame to the radio, and a LoRaWAN parser reads the right fields from it. -/
theorem C01_uplink_frame (h : Hist E (log ++ [it]) s') (hop : it.op = .send port pld c rnd) (hr : it.ret = .err .no) :
    ∃ frame f, txs it.ev = [frame] ∧ parse frame = some f ∧
      f.mtype = (if c then 4 else 2) ∧ f.rfu = 0 ∧ f.major = 0 ∧
      f.devAddr = (view E log).addr ∧
      f.fCnt = (view E log).up % 65536 ∧
      f.fPending = false ∧
      f.fOpts = (config E log).queue ∧
      f.port = (if pld = [] then none else some port.toNat) ∧
      f.payload.length = pld.length ∧
      f.mic = dataMic E (view E log).nwk 0 (view E log).addr (view E log).up (signed frame) := by
  obtain ⟨s, fr, d, ha⟩ := h.accepted hop hr
  have hv := view_hist ha.hist
  have hc := config_hist ha.hist
  obtain ⟨f, h1, h2, h3, h4, h5, h6, h7, h8, h9, h10, h11, h12, h13, h14⟩ :=
    parse_uplink E s ha.inv.queue port pld c
  refine ⟨_, f, by rw [ha.ev, txs_sent], h1, h2, h3, h4, by rw [h5, hv.addr], by rw [h10, hv.up], h9, ?_, h12, ?_, ?_⟩
  · rw [h11, ← hc]; rfl
  · rw [h13, crypt_length]
  · rw [h14, hv.nwk, hv.addr, hv.up]

/-- C02: decrypting the payload field as LoRaWAN 4.3.3 prescribes gives back the bytes passed to `uwan_send_frame`. -/
theorem C02_payload_decrypts (h : Hist E (log ++ [it]) s') (hop : it.op = .send port pld c rnd)
    (hr : it.ret = .err .no) :
    ∃ frame f, txs it.ev = [frame] ∧ parse frame = some f ∧
      crypt E (view E log).app 0 (view E log).addr (view E log).up f.payload = pld := by
  obtain ⟨s, fr, d, ha⟩ := h.accepted hop hr
  have hv := view_hist ha.hist
  obtain ⟨f, h1, -, -, -, -, -, -, -, -, -, -, -, h13, -⟩ := parse_uplink E s ha.inv.queue port pld c
  refine ⟨_, f, by rw [ha.ev, txs_sent], h1, ?_⟩
  rw [h13, hv.app, hv.addr, hv.up, crypt_crypt]

/-- A 4-byte uplink after an OTAA join. -/
def upOps : List Op := Tests.joinOps
/-- see `upOps` -/
def upOp : Op := .send 4 [0, 1, 2, 3] true Tests.rnd

example : ∃ log it s', Hist Tests.xorEnv (log ++ [it]) s' ∧ it.op = .send 4 [0, 1, 2, 3] true Tests.rnd ∧
    it.ret = .err .no ∧ (view Tests.xorEnv log).addr = 0x03020100 := by
  obtain ⟨h1, h2⟩ := Demo.next (ops := upOps) (op := upOp) (by decide +kernel) (by decide) (by decide +kernel)
  exact ⟨_, _, _, h1, h2, by decide +kernel, by decide +kernel⟩

/-- C03: the frames an operation transmits: at most N(DR)+13 ≤ 235 bytes for an uplink, 23 for a join-request, none for any
other operation. -/
theorem C03_frame_length (h : Hist E (log ++ [it]) s') (fr : Bytes) (hf : fr ∈ txs it.ev) :
    (∃ port pld c rnd, it.op = .send port pld c rnd ∧ fr.length ≤ maxPayload (config E log).txDr + 13 ∧ fr.length ≤ 235) ∨
    (∃ r1 r2, it.op = .join r1 r2 ∧ fr.length = 23) := by
  obtain ⟨s, h1, -, -, -, hs⟩ := h.last
  have hi := h1.inv
  have hcfg := config_hist h1
  have hq : ∀ q, Quiet q → fr ∉ txs q := fun q hq => by rw [txs_quiet hq]; simp
  by_cases hc : it.op.isCfg = true
  · rw [(step_cfg hc hs).1] at hf; simp [txs] at hf
  cases hop : it.op with
  | init rg =>
    rw [hop] at hs
    simp only [step, Except.ok.injEq, Prod.mk.injEq] at hs
    rw [← hs.2.2] at hf
    simp [uwanInit, txs] at hf
  | join r1 r2 =>
    right
    rw [hop] at hs
    obtain ⟨e, hr, hc⟩ := step_join hi hs
    generalize it.ev = ev at *
    cases hc with
    | state => simp [txs] at hf
    | channel => simp [txs] at hf
    | sent f d =>
      rw [txs_join, List.mem_singleton] at hf
      exact ⟨r1, r2, rfl, by rw [hf, buildJoin_length]⟩
  | send p l c rnd =>
    left
    rw [hop] at hs
    obtain ⟨e, hr, hc⟩ := step_send hi hs
    generalize it.ev = ev at *
    cases hc with
    | state => simp [txs] at hf
    | channel => simp [txs] at hf
    | len => simp [txs] at hf
    | sent f d hp hg hpk hl hn hd =>
      rw [txs_sent, List.mem_singleton] at hf
      have hlen := buildUplink_length E hi.queue p l c
      have hroom := room_eq hi
      rw [hcfg] at hroom
      have hq : (config E log).queue = s.mac.queue := by rw [← hcfg]; rfl
      unfold Cfg.room at hroom
      rw [hq] at hroom
      have hqq := hi.queue
      have hmin : 51 ≤ maxPayload (config E log).txDr ∧ maxPayload (config E log).txDr ≤ 222 := by
        unfold maxPayload; split
        · omega
        · split <;> omega
      refine ⟨p, l, c, rnd, rfl, ?_, ?_⟩
      all_goals
        rw [hf, hlen]
        split <;> omega
  | timer id =>
    rw [hop] at hs
    obtain ⟨-, hev | ⟨hev, -⟩⟩ := step_timer hs <;> simp [hev, txs] at hf
  | event m o =>
    rw [hop] at hs
    exfalso
    have hdl : ∀ (s0 s1 : St) (err : Err) (ev1 : List Ev), DlCase E o s0 err s1 ev1 → fr ∉ txs ev1 := by
      intro s0 s1 err ev1 hc
      obtain ⟨a, q, e, m, p, ha, hq, rfl⟩ := hc.shape
      rw [txs_append, txs_append, txs_quiet hq]
      rcases ha with rfl | rfl <;> simp [txs]
    have hev := step_event hi hs
    generalize it.ev = ev at *
    cases hev with
    | ignore => simp [txs] at hf
    | txDone mm ev2 hp hm hmac =>
      rw [txs_append, txs_quiet (macOnTxComplete_quiet hmac)] at hf
      simp [txs] at hf
    | rx1Timeout => simp [txs] at hf
    | rx1Done s1 ev1 hp ht hm hc => exact hdl _ _ _ _ hc (by simpa [txs] using hf)
    | rx2Timeout _ _ hp hm hc => exact hdl _ _ _ _ hc hf
    | rx2Done _ _ hp ht hm hc => exact hdl _ _ _ _ hc hf
  | _ => simp [hop, Op.isCfg] at hc

/-- The longest uplink (DR5, 222 bytes) is 235 bytes long. -/
example : ∃ log it s' fr, Hist Tests.xorEnv (log ++ [it]) s' ∧ fr ∈ txs it.ev ∧ fr.length = 235 := by
  obtain ⟨h1, h2⟩ := Demo.next (ops := upOps) (op := .send 4 (List.replicate 222 7) true Tests.rnd)
    (by decide +kernel) (by decide +kernel) (by decide +kernel)
  refine ⟨_, _, _, ((txs (Demo.nextItem upOps (.send 4 (List.replicate 222 7) true Tests.rnd)).ev).headD []), h1, ?_, ?_⟩
  · decide +kernel
  · decide +kernel

/-- C04: with no exchange pending and some channel enabled, `uwan_send_frame` reports a length error exactly when the payload
is longer than the room reported by `uwan_get_max_payload_size`, or when there is nothing to send. -/
theorem C04_length_error (h : Hist E (log ++ [it]) s') (hop : it.op = .send port pld c rnd)
    (hx : exch (trace log) = .idle) (hon : ∃ i, (config E log).on i = true) :
    (it.ret = .err .msgLen ↔
      (config E log).room < pld.length ∨ (pld = [] ∧ (config E log).queue = [])) ∧
    (it.ret = .err .msgLen ∨ it.ret = .err .no) := by
  obtain ⟨s, h1, -, -, -, hs⟩ := h.last
  have hi := h1.inv
  have hcfg := config_hist h1
  have hph : s.phase = .idle := by
    have := (obs_hist h1).1
    rw [hx] at this
    cases hp : s.phase <;> rw [hp] at this <;> first | rfl | exact absurd this (by decide)
  rw [hop] at hs
  obtain ⟨e, hr, hc⟩ := step_send hi hs
  have hroom := room_eq hi
  rw [hcfg] at hroom
  have hq : (config E log).queue = s.mac.queue := by rw [← hcfg]; rfl
  rw [hroom, hq, hr]
  obtain ⟨i, hoi⟩ := hon
  rw [← hcfg] at hoi
  have hoi' : i < 16 ∧ s.chan.mask.isSet i = true := by
    have : (decide (i < 16) && s.chan.mask.isSet i) = true := hoi
    simpa using this
  generalize it.ev = ev at *
  cases hc with
  | state hp => exact absurd hph hp
  | channel _ hc => rw [hc i hoi'.1] at hoi'; simp at hoi'
  | len f hp hf hl =>
    refine ⟨iff_of_true rfl ?_, .inl rfl⟩
    rcases hl with hl | ⟨h1, h2⟩
    · exact .inl hl
    · exact .inr ⟨List.length_eq_zero_iff.mp h1, List.length_eq_zero_iff.mp h2⟩
  | sent f d hp hg hf hl hn =>
    refine ⟨iff_of_false (by simp) ?_, .inr rfl⟩
    rintro (h | ⟨h1, h2⟩)
    · omega
    · exact hn (by simp [h1, h2])

/-- C04: what `uwan_get_max_payload_size` returns. -/
theorem C04_reported_size (h : Hist E (log ++ [it]) s') (hop : it.op = .getMaxPayload) :
    it.ret = .nat (maxPayload (config E log).txDr - (config E log).queue.length) := by
  obtain ⟨s, h1, -, -, -, hs⟩ := h.last
  rw [hop] at hs
  simp only [step, Except.ok.injEq, Prod.mk.injEq] at hs
  have := room_eq h1.inv
  rw [config_hist h1] at this
  rw [← hs.1, ← this]; rfl

/-- With two queued MAC bytes at DR5 the limit is 220: 220 bytes go, 221 are refused. -/
example : ∃ (log : List Item) (i1 i2 i3 : Item) (s1 s2 s3 : St),
    Hist Tests.xorEnv (log ++ [i1]) s1 ∧ Hist Tests.xorEnv (log ++ [i2]) s2 ∧ Hist Tests.xorEnv (log ++ [i3]) s3 ∧
    i1.op = .getMaxPayload ∧ i1.ret = .nat 220 ∧
    i2.op = .send 1 (List.replicate 220 7) true Tests.rnd ∧ i2.ret = .err .no ∧
    i3.op = .send 1 (List.replicate 221 7) true Tests.rnd ∧ i3.ret = .err .msgLen ∧
    exch (trace log) = .idle ∧ (config Tests.xorEnv log).on 1 = true := by
  have hf : Demo.fine (upOps ++ [.linkCheckReq, .linkCheckReq]) = true := by decide +kernel
  obtain ⟨a1, a2⟩ := Demo.next (op := .getMaxPayload) hf (by decide) (by decide +kernel)
  obtain ⟨b1, b2⟩ := Demo.next (op := .send 1 (List.replicate 220 7) true Tests.rnd) hf (by decide +kernel) (by decide +kernel)
  obtain ⟨c1, c2⟩ := Demo.next (op := .send 1 (List.replicate 221 7) true Tests.rnd) hf (by decide +kernel) (by decide +kernel)
  exact ⟨_, _, _, _, _, _, _, a1, b1, c1, a2, by decide +kernel, b2, by decide +kernel, c2, by decide +kernel,
    by decide +kernel, by decide +kernel⟩

/-- C05: a refused uplink or join makes no call to radio, timers, crypto or application and leaves the whole state as it
was. -/
theorem C05_refused_no_effect (h : Hist E (log ++ [it]) s')
    (hop : (∃ port pld c rnd, it.op = .send port pld c rnd) ∨ (∃ r1 r2, it.op = .join r1 r2))
    (hr : it.ret ≠ .err .no) : it.ev = [] ∧ it.post = it.pre := by
  obtain ⟨s, h1, e1, e2, -, hs⟩ := h.last
  rw [e1, e2]
  rcases hop with ⟨p, l, c, rnd, hop⟩ | ⟨r1, r2, hop⟩
  · rw [hop] at hs
    obtain ⟨e, hr', hc⟩ := step_send h1.inv hs
    generalize it.ev = ev at *
    cases hc <;> first | exact ⟨rfl, rfl⟩ | exact absurd hr' hr
  · rw [hop] at hs
    obtain ⟨e, hr', hc⟩ := step_join h1.inv hs
    generalize it.ev = ev at *
    cases hc <;> first | exact ⟨rfl, rfl⟩ | exact absurd hr' hr

/-- A second uplink during an exchange, and one that is too long. -/
example : ∃ (log : List Item) (i1 : Item) (s1 : St), Hist Tests.xorEnv (log ++ [i1]) s1 ∧
    i1.op = .send 1 [1] true Tests.rnd ∧ i1.ret = .err .state := by
  obtain ⟨a1, a2⟩ := Demo.next (ops := upOps ++ [upOp]) (op := .send 1 [1] true Tests.rnd) (by decide +kernel) (by decide)
    (by decide +kernel)
  exact ⟨_, _, _, a1, a2, by decide +kernel⟩

/-- C06: after the operation `it0` that started the session, and any further operations `seg` that do not start another one,
the next accepted uplink carries that session's address and the counter `start + k` (mod 2^32), `k` being the number of accepted uplinks in between: the low
16 bits on air, all 32 bits in the MIC and in the encryption. -/
theorem C06_uplink_counter {it0 : Item} {seg : List Item} (h : Hist E (log ++ [it0] ++ seg ++ [it]) s')
    (h0 : newSession it0 = true) (hseg : ∀ x ∈ seg, newSession x = false)
    (hop : it.op = .send port pld c rnd) (hr : it.ret = .err .no) :
    let n := (firstCount it0 + sentCount seg) % 2 ^ 32
    let v := view E (log ++ [it0])
    ∃ frame f, txs it.ev = [frame] ∧ parse frame = some f ∧ f.fCnt = n % 65536 ∧
      f.devAddr = v.addr ∧
      f.mic = dataMic E v.nwk 0 v.addr n (signed frame) ∧ crypt E v.app 0 v.addr n f.payload = pld := by
  intro n v
  obtain ⟨s1, hp, -⟩ := Hist.prefix (a := log ++ [it0] ++ seg) h
  obtain ⟨s0, hp0, -⟩ := Hist.prefix (a := log ++ [it0]) hp
  have hup : (view E (log ++ [it0] ++ seg)).up = n := by
    have := view_up (E := E) (log ++ [it0]) seg hseg
    rw [view_first hp0 h0, Nat.mod_eq_of_lt (up_lt hp)] at this
    exact this
  obtain ⟨k1, k2, k3⟩ := view_keep (E := E) (log ++ [it0]) seg hseg
  obtain ⟨fr, f, h1, h2, -, -, -, h5, h3, -, -, -, -, h4⟩ := C01_uplink_frame h hop hr
  obtain ⟨fr', f', g1, g2, g3⟩ := C02_payload_decrypts h hop hr
  rw [h1] at g1
  cases g1
  rw [h2] at g2
  cases g2
  rw [hup] at h3
  rw [hup, k1, k3] at h4
  rw [hup, k2, k3] at g3
  rw [k3] at h5
  exact ⟨fr, f, h1, h2, h3, h5, h4, g3⟩

/-- A counter that rolls over 16 bits: session counter 65535, one uplink with timeouts in both windows, then the next. -/
def rollOps : List Op :=
  [.init .eu868, .setDr 5, .setSession 0x11223344 65535 0 Tests.appKey Tests.appKey, .send 2 [9] false 0,
   .event 4 (Tests.rxOf []), .timer .rx1, .event 1 (Tests.rxOf []), .timer .rx2, .event 1 (Tests.rxOf [])]
/-- see `rollOps` -/
def rollOp : Op := .send 2 [8] false 0

example : ∃ (log : List Item) (it0 : Item) (seg : List Item) (it : Item) (s' : St),
    Hist Tests.xorEnv (log ++ [it0] ++ seg ++ [it]) s' ∧ newSession it0 = true ∧ (∀ x ∈ seg, newSession x = false) ∧
    it.op = rollOp ∧ it.ret = .err .no ∧ firstCount it0 = 65535 ∧ sentCount seg = 1 := by
  have hf : Demo.fine rollOps = true := by decide +kernel
  obtain ⟨h1, h2⟩ := Demo.next (op := rollOp) hf (by decide) (by decide +kernel)
  obtain ⟨i0, o0, g0, e0⟩ := Demo.cut hf 2 (by decide)
  refine ⟨(Demo.items rollOps).take 2, i0, (Demo.items rollOps).drop 3, _, _,
    by rw [← e0]; exact h1, ?_, by decide +kernel, h2, by decide +kernel, ?_, by decide +kernel⟩
  · unfold newSession; rw [o0]; rfl
  · unfold firstCount; rw [o0]; rfl

/-- C07: two uplinks accepted in one session, fewer than 2^32 apart, have different counters, and no block is encrypted for
both. -/
theorem C07_no_block_reuse {seg : List Item} {it1 it2 : Item} {p1 p2 : Byte} {l1 l2 : Bytes} {c1 c2 : Bool} {r1 r2 : Nat}
    (h : Hist E (log ++ [it1] ++ seg ++ [it2]) s')
    (hseg : ∀ x ∈ seg, newSession x = false) (hlt : sentCount seg + 1 < 2 ^ 32)
    (hop1 : it1.op = .send p1 l1 c1 r1) (hr1 : it1.ret = .err .no)
    (hop2 : it2.op = .send p2 l2 c2 r2) (hr2 : it2.ret = .err .no) :
    (view E log).up ≠ (view E (log ++ [it1] ++ seg)).up ∧
    ∀ b, Ev.aesEncrypt b ∈ it1.ev → Ev.aesEncrypt b ∉ it2.ev := by
  obtain ⟨sA, hA, -⟩ := Hist.prefix (a := log ++ [it1] ++ seg) h
  obtain ⟨sB, hB, -⟩ := Hist.prefix (a := log ++ [it1]) hA
  obtain ⟨s1, f1, d1, a1⟩ := hB.accepted hop1 hr1
  obtain ⟨s2, f2, d2, a2⟩ := h.accepted hop2 hr2
  have hn1 : newSession it1 = false := by
    obtain ⟨s0, g1, -, -, -, hs⟩ := hB.last
    unfold newSession
    rw [hop1]
    simp only
    cases hj : joinReported it1.ev with
    | false => rfl
    | true =>
      obtain ⟨e, m, p, hm⟩ := joinReported_mem hj
      exact absurd hm (no_report g1.inv hs (by rw [hop1]; exact nofun) e m p)
  have hc : sentCount ([it1] ++ seg) = sentCount seg + 1 := by
    unfold sentCount
    rw [List.singleton_append, List.countP_cons]
    simp [hop1, hr1]
  have hne : (view E log).up ≠ (view E (log ++ [it1] ++ seg)).up := by
    have := view_up (E := E) log ([it1] ++ seg) (by
      intro x hx
      rcases List.mem_append.mp hx with hx | hx
      · rw [List.mem_singleton.mp hx]; exact hn1
      · exact hseg x hx)
    rw [← List.append_assoc, Nat.mod_eq_of_lt (up_lt hA), hc] at this
    have hl := up_lt a1.hist
    omega
  refine ⟨hne, fun b hb1 hb2 => hne ?_⟩
  rw [a1.ev] at hb1
  rw [a2.ev] at hb2
  obtain ⟨i, e1⟩ := sentEv_blocks hb1
  obtain ⟨j, e2⟩ := sentEv_blocks hb2
  rw [(view_hist a1.hist).up, (view_hist a2.hist).up]
  exact blockA_cnt (e1.symm.trans e2) s1.session.fCntUp.isLt s2.session.fCntUp.isLt

example : ∃ (log : List Item) (it1 : Item) (seg : List Item) (it2 : Item) (s' : St),
    Hist Tests.xorEnv (log ++ [it1] ++ seg ++ [it2]) s' ∧ (∀ x ∈ seg, newSession x = false) ∧ sentCount seg + 1 < 2 ^ 32 ∧
    it1.op = .send 2 [9] false 0 ∧ it1.ret = .err .no ∧ it2.op = rollOp ∧ it2.ret = .err .no ∧
    (∃ b, Ev.aesEncrypt b ∈ it1.ev) ∧ (∃ b, Ev.aesEncrypt b ∈ it2.ev) := by
  have hf : Demo.fine rollOps = true := by decide +kernel
  obtain ⟨h1, h2⟩ := Demo.next (op := rollOp) hf (by decide) (by decide +kernel)
  obtain ⟨i0, o0, g0, e0⟩ := Demo.cut hf 3 (by decide)
  have q : ∀ it, (Demo.items rollOps)[3]? = some it →
      it.ret = .err .no ∧ ∃ b, Ev.aesEncrypt b ∈ it.ev := by
    intro it h
    have hx : ((Demo.items rollOps)[3]?.map fun it =>
        it.ret == .err .no && it.ev.contains (Ev.aesEncrypt (blockA 0 0x11223344 65535 1))) = some true := by
      decide +kernel
    rw [h] at hx
    simp only [Option.map_some, Option.some.injEq, Bool.and_eq_true, beq_iff_eq, List.contains_iff_mem] at hx
    exact ⟨hx.1, _, hx.2⟩
  exact ⟨(Demo.items rollOps).take 3, i0, (Demo.items rollOps).drop 4, _, _,
    by rw [← e0]; exact h1, by decide +kernel, by decide +kernel, o0, (q i0 g0).1, h2, by decide +kernel, (q i0 g0).2,
    ⟨blockA 0 0x11223344 65536 1, by decide +kernel⟩⟩

end Uwan
