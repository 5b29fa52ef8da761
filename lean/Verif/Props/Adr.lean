import Verif.Lemmas.Report
import Verif.Tests.Demo

/-!
# ADR, acknowledgements, power and limits of `uwan_send_frame` (C20-C26)
-/

namespace Uwan
open Spec

variable {E : Env} {log : List Item} {it : Item} {s' : St} {port : Byte} {pld : Bytes} {c : Bool} {rnd : Nat}

/-! ### C20, C21 -/

/-- C20: the ADR bit says whether ADR is enabled; ADRACKReq says whether moreover the data rate can still go down and the limit of
unanswered uplinks has been reached. -/
theorem C20_adr_bits (h : Hist E (log ++ [it]) s') (hop : it.op = .send port pld c rnd) (hr : it.ret = .err .no) :
    ∃ frame f, txs it.ev = [frame] ∧ parse frame = some f ∧ f.adr = adrOn log ∧
      f.adrAckReq = (adrOn log && decide ((config E log).dr ≠ 0) && decide ((config E log).limit ≤ (config E log).cnt)) := by
  obtain ⟨s, fr, d, ha⟩ := h.accepted hop hr
  have hc := config_hist ha.hist
  obtain ⟨f, h1, -, -, -, -, h6, h7, -⟩ := parse_uplink E s ha.inv.queue port pld c
  refine ⟨_, f, by rw [ha.ev, txs_sent], h1, ?_, ?_⟩
  · rw [h6, ← config_adr (E := E) log, ← hc]; rfl
  · rw [h7, reqBit_eq, hc, config_adr]

/-- C20, counted from the history: after `it0` (ADR enabled or a data downlink accepted) and calm operations `seg` (no accepted
downlink, no new session, no change of ADR settings), with `n` uplinks in `seg`, the bit is set exactly when ADR is on, the data rate is above DR0
and `n mod (limit + delay + 1)`, the number of uplinks since `it0` or the last back-off step, has reached the limit. -/
theorem C20_ack_request {it0 : Item} {seg : List Item} (h : Hist E (log ++ [it0] ++ seg ++ [it]) s')
    (h0 : adrReset it0 = true) (hseg : ∀ x ∈ seg, calm x = true)
    (hop : it.op = .send port pld c rnd) (hr : it.ret = .err .no) :
    let c0 := config E (log ++ [it0])
    let p := c0.limit + c0.adrDelay + 1
    let n := sentCount seg
    ∃ frame f, txs it.ev = [frame] ∧ parse frame = some f ∧
      f.adrAckReq = (adrOn (log ++ [it0] ++ seg) && decide (c0.dr - n / p ≠ 0) && decide (c0.limit ≤ n % p)) := by
  intro c0 p n
  obtain ⟨s1, hp, -⟩ := Hist.prefix (a := log ++ [it0] ++ seg) h
  obtain ⟨s0, hp0, -⟩ := Hist.prefix (a := log ++ [it0]) hp
  obtain ⟨b1, b2⟩ := limit_lt hp0
  obtain ⟨k1, k2, k3, k4⟩ := backoff (E := E) (log ++ [it0]) (reset_cnt hp0 h0) seg hseg b1 b2
  obtain ⟨fr, f, h1, h2, -, h3⟩ := C20_adr_bits h hop hr
  refine ⟨fr, f, h1, h2, ?_⟩
  have e : decide ((config E (log ++ [it0] ++ seg)).dr ≠ 0) = decide (c0.dr - n / p ≠ 0) := by rw [← k1]
  rw [h3, k3, e]
  by_cases hz : (config E (log ++ [it0] ++ seg)).dr = 0
  · have hz' : c0.dr - n / p = 0 := by rw [← k1]; exact hz
    rw [hz']; simp
  · rw [k2 hz]

/-- C21: with ADR on, the uplink after `n` unanswered ones goes out at the data rate `n / (limit + delay + 1)` steps below the
one the period began with, but not below DR0. -/
theorem C21_backoff {it0 : Item} {seg : List Item} (h : Hist E (log ++ [it0] ++ seg ++ [it]) s')
    (h0 : adrReset it0 = true) (hseg : ∀ x ∈ seg, calm x = true)
    (hop : it.op = .send port pld c rnd) (hr : it.ret = .err .no) (hon : adrOn (log ++ [it0] ++ seg) = true) :
    let c0 := config E (log ++ [it0])
    let p := c0.limit + c0.adrDelay + 1
    ∃ pp, (radio (trace (log ++ [it0] ++ seg ++ [it]))).txPp = some pp ∧
      sfNum pp.sf = 12 - (c0.dr - sentCount seg / p) := by
  intro c0 p
  obtain ⟨s1, hp, -⟩ := Hist.prefix (a := log ++ [it0] ++ seg) h
  obtain ⟨s0, hp0, -⟩ := Hist.prefix (a := log ++ [it0]) hp
  obtain ⟨b1, b2⟩ := limit_lt hp0
  obtain ⟨k1, -, -, -⟩ := backoff (E := E) (log ++ [it0]) (reset_cnt hp0 h0) seg hseg b1 b2
  obtain ⟨s, fr, d, ha⟩ := h.accepted hop hr
  have hc := config_hist ha.hist
  refine ⟨txPp s.pp d, ?_, ?_⟩
  · rw [radio_trace, ha.ev, radio_sentEv]; rfl
  · obtain ⟨-, hsf⟩ := drTable_sf ha.dr
    show sfNum d.1 = _
    rw [hsf, ← txDr_eq, hc]
    unfold Cfg.txDr
    rw [config_adr, hon, if_pos rfl, k1]

/-- C95: a join-request goes out at the default data rate, a data uplink at the session's data rate if ADR is on and at the default one if not; DR `n` is
SF(12-n) at 125 kHz. -/
theorem C95_datarate (h : Hist E (log ++ [it]) s') (hs : sentItem it = true) :
    ∃ pp, (radio (trace (log ++ [it]))).txPp = some pp ∧ sfNum pp.sf = 12 - sentDr (config E log) it.op ∧ pp.bw = .bw125 ∧
      sentDr (config E log) it.op ≤ 5 := by
  unfold sentItem at hs
  cases hop : it.op with
  | send p l c r =>
    rw [hop] at hs
    obtain ⟨s, f, d, ha⟩ := h.accepted hop (by simpa using hs)
    have hb := drTable_bw ha.dr
    obtain ⟨-, hsf⟩ := drTable_sf ha.dr
    rw [← config_hist ha.hist]
    refine ⟨txPp s.pp d, by rw [radio_trace, ha.ev, radio_sentEv]; rfl, ?_, hb, ?_⟩
    · show sfNum d.1 = _
      rw [hsf, ← txDr_eq]; rfl
    · show Cfg.txDr _ ≤ 5
      rw [txDr_eq]
      exact Nat.le_of_lt_succ (currentDr_lt ha.inv)
  | join r1 r2 =>
    rw [hop] at hs
    obtain ⟨s, f, d, ha⟩ := h.joinSent hop (by simpa using hs)
    have hb := drTable_bw ha.dr
    obtain ⟨-, hsf⟩ := drTable_sf ha.dr
    rw [← config_hist ha.hist]
    refine ⟨txPp s.pp d, by rw [radio_trace, ha.ev, radio_joinEv]; rfl, hsf, hb, Nat.le_of_lt_succ ha.inv.defaultDr⟩
  | _ => rw [hop] at hs; cases hs

/-- C21: DR0 (SF12) is always reached, after enough unanswered uplinks. -/
theorem C21_reaches_dr0 {it0 : Item} {seg : List Item} (h : Hist E (log ++ [it0] ++ seg ++ [it]) s')
    (h0 : adrReset it0 = true) (hseg : ∀ x ∈ seg, calm x = true)
    (hop : it.op = .send port pld c rnd) (hr : it.ret = .err .no) (hon : adrOn (log ++ [it0] ++ seg) = true)
    (hn : 5 * 511 ≤ sentCount seg) :
    ∃ pp, (radio (trace (log ++ [it0] ++ seg ++ [it]))).txPp = some pp ∧ pp.sf = .sf12 := by
  obtain ⟨pp, h1, h2⟩ := C21_backoff h h0 hseg hop hr hon
  refine ⟨pp, h1, ?_⟩
  obtain ⟨s1, hp, -⟩ := Hist.prefix (a := log ++ [it0] ++ seg) h
  obtain ⟨s0, hp0, -⟩ := Hist.prefix (a := log ++ [it0]) hp
  obtain ⟨b1, b2⟩ := limit_lt hp0
  have hd : (config E (log ++ [it0])).dr < 6 := by
    rw [← config_hist hp0]; exact hp0.inv.dr
  have : 5 ≤ sentCount seg / ((config E (log ++ [it0])).limit + (config E (log ++ [it0])).adrDelay + 1) := by
    rw [Nat.le_div_iff_mul_le (by omega)]
    have : 5 * ((config E (log ++ [it0])).limit + (config E (log ++ [it0])).adrDelay + 1) ≤ 5 * 511 := by omega
    omega
  have h12 : sfNum pp.sf = 12 := by rw [h2]; omega
  cases hx : pp.sf <;> rw [hx] at h12 <;> first | rfl | exact absurd h12 (by decide)

/-- An unanswered uplink. -/
def quietUp : List Op :=
  [.send 2 [9] false 0, .event 4 (Tests.rxOf []), .timer .rx1, .event 1 (Tests.rxOf []), .timer .rx2,
   .event 1 (Tests.rxOf [])]
/-- ADR with limit 1 and delay 1 at DR5, then seven unanswered uplinks: two back-off steps, one uplink into the third period. -/
def adrOps : List Op :=
  [.init .eu868, .setSession 0x11223344 0 0 Tests.appKey Tests.appKey, .setDr 5, .adrSetupAck 1 1, .adrEnable true] ++
  (List.replicate 7 quietUp).flatten

example : ∃ (log : List Item) (it0 : Item) (seg : List Item) (it : Item) (s' : St),
    Hist Tests.xorEnv (log ++ [it0] ++ seg ++ [it]) s' ∧ adrReset it0 = true ∧ (∀ x ∈ seg, calm x = true) ∧
    it.op = .send 2 [9] false 0 ∧ it.ret = .err .no ∧ adrOn (log ++ [it0] ++ seg) = true ∧ sentCount seg = 7 ∧
    (config Tests.xorEnv (log ++ [it0])).dr = 5 ∧ (config Tests.xorEnv (log ++ [it0])).limit = 1 ∧
    (config Tests.xorEnv (log ++ [it0])).adrDelay = 1 := by
  have hf : Demo.fine adrOps = true := by decide +kernel
  obtain ⟨h1, h2⟩ := Demo.next (op := .send 2 [9] false 0) hf (by decide) (by decide +kernel)
  obtain ⟨i0, o0, g0, e0⟩ := Demo.cut hf 4 (by decide +kernel)
  have ea := Demo.take_succ g0
  refine ⟨(Demo.items adrOps).take 4, i0, (Demo.items adrOps).drop 5, _, _,
    by rw [← e0]; exact h1, ?_, by decide +kernel, h2, by decide +kernel, by rw [← e0]; decide +kernel,
    by decide +kernel, by rw [ea]; decide +kernel, by rw [ea]; decide +kernel, by rw [ea]; decide +kernel⟩
  unfold adrReset
  rw [o0]; rfl

/- C95: after two back-off steps the session is at DR3; with ADR switched off, the next uplink goes out at the default DR5. -/
example : ∃ (log : List Item) (it : Item) (s' : St), Hist Tests.xorEnv (log ++ [it]) s' ∧ sentItem it = true ∧
    sentDr (config Tests.xorEnv log) it.op = 5 ∧ (config Tests.xorEnv log).dr = 3 := by
  have hf : Demo.fine (adrOps ++ [.adrEnable false]) = true := by decide +kernel
  obtain ⟨h1, -⟩ := Demo.next (op := .send 2 [9] false 0) hf (by decide) (by decide +kernel)
  exact ⟨_, _, _, h1, by decide +kernel, by decide +kernel, by decide +kernel⟩

/-! ### C22 -/

theorem next_ack (h : Hist E (log ++ [it]) s') :
    (config E (log ++ [it])).ack =
      if confirmedSeen E log it then true else if ackCleared it then false else (config E log).ack := by
  obtain ⟨s0, hl, -, -, -, hs⟩ := h.last
  have key : (∀ m o, it.op ≠ .event m o) → joinReported it.ev = false := by
    intro ho
    cases hj : joinReported it.ev with
    | false => rfl
    | true =>
      obtain ⟨e, m, p, hm⟩ := joinReported_mem hj
      exact absurd hm (no_report hl.inv hs ho e m p)
  rw [config_snoc]
  unfold Cfg.next confirmedSeen ackCleared
  cases hop : it.op with
  | init r =>
    simp only
    cases r
    · exact ((setChannel_frame ..).trans ((setChannel_frame ..).trans (setChannel_frame ..))).ack
    · exact ((setChannel_frame ..).trans (setChannel_frame ..)).ack
  | setSession => rfl
  | send =>
    simp only
    by_cases hr : it.ret = .err .no
    · simp [hr, Cfg.sent]
    · simp [hr]
  | event m o =>
    simp only
    rw [joinReported_iff h hop]
    cases hr : report it.ev with
    | none => simp only; split <;> simp
    | some e =>
      simp only
      by_cases hj : (config E log).joining = true
      · simp only [hj, if_true, Bool.not_true, Bool.false_and, Bool.false_eq_true, if_false, Bool.true_and]
        by_cases he : e = .no
        · subst he
          simp only [if_true, decide_true]
          show ((config E log).accept _).ack = false
          unfold Cfg.accept
          simp only
          split
          · split
            · exact (cfList_frame ..).ack
            · rfl
          · rfl
        · simp [he]
      · have hj' : (config E log).joining = false := by simpa using hj
        simp only [hj', Bool.false_eq_true, if_false, Bool.not_false, Bool.true_and, Bool.false_and]
        generalize hbuf : o.rxData.take 255 = buf
        show ((config E log).receive o buf e).ack = _
        have hna : ((config E log).noteAck buf).ack =
            if (isDataDown buf && leNat (buf.take 1) / 32 == 5) then true else (config E log).ack := by
          unfold Cfg.noteAck
          by_cases h1 : isDataDown buf = true <;> by_cases h2 : leNat (buf.take 1) / 32 = 5 <;> simp [h1, h2]
        have htk : o.rxData.take 1 = buf.take 1 := by rw [← hbuf, List.take_take]; rfl
        rw [htk]
        by_cases hto : e = .rxTimeout ∨ e = .rxCrc
        · have : (e != .rxTimeout && e != .rxCrc) = false := by rcases hto with rfl | rfl <;> rfl
          rw [this]
          simp only [Bool.and_false, Bool.false_eq_true, if_false]
          unfold Cfg.receive
          rw [if_neg (by rcases hto with rfl | rfl <;> decide), if_pos hto]
        · have hte : (e != .rxTimeout && e != .rxCrc) = true := by simpa using hto
          rw [hte, Bool.and_true]
          rw [← hna]
          unfold Cfg.receive
          by_cases hg : e = .no ∨ e = .msgMic
          · rw [if_pos hg]
            simp only [not_or] at hto
            have hp : ∃ f, parse buf = some f := by
              obtain ⟨s, s2, ev0, p, evq, R⟩ := h.rxData hop hr hj' hto.1 hto.2
              have hd := R.data
              rw [hbuf] at hd
              generalize rxSt o { s with phase := .idle } = t at hd
              have hgo : ∀ H : DHdr, buf = H.bytes → 12 ≤ buf.length → 12 + H.fo ≤ buf.length → ∃ f, parse buf = some f := by
                intro H hb hl hf
                subst hb
                obtain ⟨f, hf, -⟩ := H.parse hl hf
                exact ⟨f, hf⟩
              cases hd with
              | mic H d s2 ev1 hb hl ht ha hf => exact hgo H hb hl hf
              | good H d s2 ev1 fr hb hl ht ha hf => exact hgo H hb hl hf
              | _ => simp at hg
            obtain ⟨f, hf⟩ := hp
            rw [hf]
            simp only
            have := (execBytes_frame o.bat f.fOpts
              { (config E log).noteAck buf with down := (nextDown (config E log).down f.fCnt).getD 0, snr := o.snr.toInt }).ack
            split <;> exact this
          · rw [if_neg hg, if_neg hto]
  | enableChannel i en =>
    simp only [hop] at key ⊢
    rw [key (by simp)]; exact (enable_frame ..).ack
  | setChannel i f =>
    simp only [hop] at key ⊢
    rw [key (by simp)]; exact (setChannel_frame ..).ack
  | linkCheckReq =>
    simp only [hop] at key ⊢
    rw [key (by simp)]; exact (answer_frame ..).ack
  | deviceTimeReq =>
    simp only [hop] at key ⊢
    rw [key (by simp)]; exact (answer_frame ..).ack
  | _ =>
    simp only [hop] at key ⊢
    rw [key (by simp)]
    first
      | rfl
      | (simp only [Bool.false_eq_true, if_false]; split <;> rfl)

theorem ack_iff {s : St} (h : Hist E log s) :
    (config E log).ack = true ↔ ∃ a x b, log = a ++ [x] ++ b ∧ confirmedSeen E a x = true ∧ ∀ y ∈ b, ackCleared y = false := by
  induction h with
  | nil =>
    constructor
    · intro h; cases h
    · rintro ⟨a, x, b, h, -⟩; simp at h
  | @snoc log s1 s2 op r ev h hv hs ih =>
    rw [next_ack (h.snoc hv hs)]
    constructor
    · intro hk
      split at hk
      · next hcs => exact ⟨log, _, [], by simp, hcs, by simp⟩
      · split at hk
        · simp at hk
        · next hcl =>
          obtain ⟨a, x, b, e, g1, g2⟩ := ih.mp hk
          refine ⟨a, x, b ++ [⟨s1, op, r, ev, s2⟩], by rw [e]; simp only [List.append_assoc], g1, ?_⟩
          intro y hy
          rcases List.mem_append.mp hy with hy | hy
          · exact g2 y hy
          · rw [List.mem_singleton.mp hy]; simpa using hcl
    · rintro ⟨a, x, b, e, g1, g2⟩
      rcases List.eq_nil_or_concat b with rfl | ⟨b', y, rfl⟩
      · rw [List.append_nil] at e
        obtain ⟨rfl, e2⟩ := List.append_inj' e rfl
        cases e2
        rw [if_pos g1]
      · rw [List.concat_eq_append, ← List.append_assoc] at e
        obtain ⟨rfl, e2⟩ := List.append_inj' e rfl
        cases e2
        have hy := g2 _ (by rw [List.concat_eq_append]; exact List.mem_append_right _ (List.mem_singleton_self _))
        split
        · rfl
        · rw [if_neg (by rw [hy]; simp)]
          exact ih.mpr ⟨a, x, b', rfl, g1, fun z hz => g2 z (by rw [List.concat_eq_append]; exact List.mem_append_left _ hz)⟩

/-- C22, what holds: an uplink carries the ACK bit exactly when, since the last uplink or session start, a frame of type
"confirmed data down" arrived in a data window. Missing: the frame need not be addressed to this device nor carry a valid MIC
(`C22_forged_ack`). -/
theorem C22_ack_bit_partial (h : Hist E (log ++ [it]) s') (hop : it.op = .send port pld c rnd) (hr : it.ret = .err .no) :
    ∃ frame f, txs it.ev = [frame] ∧ parse frame = some f ∧
      (f.ack = true ↔ ∃ a x b, log = a ++ [x] ++ b ∧ confirmedSeen E a x = true ∧
        ∀ y ∈ b, ackCleared y = false) := by
  obtain ⟨s, fr, d, ha⟩ := h.accepted hop hr
  have hc := config_hist ha.hist
  obtain ⟨f, h1, -, -, -, -, -, -, h8, -⟩ := parse_uplink E s ha.inv.queue port pld c
  refine ⟨_, f, by rw [ha.ev, txs_sent], h1, ?_⟩
  have : f.ack = (config E log).ack := by rw [h8, ← hc]; rfl
  rw [this]
  exact ack_iff ha.hist

/-- A confirmed frame for another device (and with a garbage MIC) arrives. -/
def forgedAckOps : List Op :=
  upAbp ++ [.send 2 [9] false 0, .event 4 (Tests.rxOf []), .timer .rx1,
    .event 2 (Tests.rxOf [0xa0, 1, 1, 1, 1, 0, 1, 0, 0, 0, 0, 0])]
where
  /-- an ABP session -/
  upAbp : List Op := [.init .eu868, .setSession 0x11223344 0 0 Tests.appKey Tests.appKey]

/-- C22 does not hold of the code: a frame for another device with a wrong MIC makes the next uplink carry an ACK, although no
downlink was ever accepted. -/
theorem C22_forged_ack : ∃ (log : List Item) (it : Item) (s' : St) (frame : Bytes) (f : DataFrame),
    Hist Tests.xorEnv (log ++ [it]) s' ∧ it.op = .send 2 [9] false 0 ∧ it.ret = .err .no ∧ txs it.ev = [frame] ∧
    parse frame = some f ∧ f.ack = true ∧ ∀ x ∈ log, dataReported x.ev = false := by
  have hf : Demo.fine forgedAckOps = true := by decide +kernel
  obtain ⟨h1, h2⟩ := Demo.next (op := .send 2 [9] false 0) hf (by decide) (by decide +kernel)
  have hr : (Demo.nextItem forgedAckOps (.send 2 [9] false 0)).ret = .err .no := by decide +kernel
  obtain ⟨s, fr, d, ha⟩ := h1.accepted h2 hr
  obtain ⟨f, p1, -, -, -, -, -, -, p8, -⟩ := parse_uplink Tests.xorEnv s ha.inv.queue 2 [9] false
  refine ⟨_, _, _, _, f, h1, h2, hr, by rw [ha.ev, txs_sent], p1, ?_, by decide +kernel⟩
  have := config_hist ha.hist
  rw [p8]
  show (cfgOf s).ack = true
  rw [this]
  decide +kernel

/-- Meeting the hypotheses of `C22_ack_bit_partial`, with the flag set. -/
example : ∃ (log : List Item) (it : Item) (s' : St), Hist Tests.xorEnv (log ++ [it]) s' ∧ it.op = .send 2 [9] false 0 ∧
    it.ret = .err .no ∧ ∃ a x b, log = a ++ [x] ++ b ∧ confirmedSeen Tests.xorEnv a x = true ∧
      ∀ y ∈ b, ackCleared y = false := by
  obtain ⟨log, it, s', frame, f, h, h1, h2, h3, h4, h5, -⟩ := C22_forged_ack
  obtain ⟨fr', f', g1, g2, g3⟩ := C22_ack_bit_partial h h1 h2
  rw [h3] at g1; cases g1
  rw [h4] at g2; cases g2
  exact ⟨log, it, s', h, h1, h2, g3.mp h5⟩

/-! ### C23 -/

/-- C23, what holds: every accepted uplink is transmitted exactly once. Missing: repetition (`C23_not_repeated`). -/
theorem C23_sent_once_partial (h : Hist E (log ++ [it]) s') (hop : it.op = .send port pld c rnd) (hr : it.ret = .err .no) :
    (txs it.ev).length = 1 := by
  obtain ⟨s, fr, d, ha⟩ := h.accepted hop hr
  rw [ha.ev, txs_sent]; rfl

/-- An unconfirmed uplink with NbTrans 3 and its whole exchange. -/
def nbOps : List Op :=
  [.init .eu868, .setSession 0x11223344 0 0 Tests.appKey Tests.appKey, .setNbTrans 3] ++ quietUp

/-- C23 does not hold of the code: with NbTrans 3 an unconfirmed uplink is transmitted once, and its exchange is over after
that. -/
theorem C23_not_repeated : ∃ (log : List Item) (s : St), Hist Tests.xorEnv log s ∧ log.map (·.op) = nbOps ∧
    (config Tests.xorEnv log).nb = 3 ∧ (txs (trace log)).length = 1 ∧ sentCount log = 1 ∧ exch (trace log) = .idle := by
  have hf : Demo.fine nbOps = true := by decide +kernel
  exact ⟨_, _, Demo.hist hf, Demo.items_map hf, by decide +kernel, by decide +kernel, by decide +kernel, by decide +kernel⟩

/-! ### C24 -/

/-- The power that was set when a frame is handed to the radio. -/
theorem tx_power (h : Hist E (log ++ [it]) s') (hs : sentItem it = true) :
    ∃ pre fr, it.ev = pre ++ [Ev.tx fr] ∧
      (radio (trace log ++ pre)).power = some (BitVec.ofInt 8 ((config E log).eirp - 2 * ((config E log).pow : Int))).toInt := by
  have key : ∀ (s : St) (d : Sf × Bw) (f : U32) (q : List Ev) (r : Radio), Quiet q →
      ((txSetup s d f ++ q).foldl Radio.next r).power =
        some (BitVec.ofInt 8 (s.maxEirp.toInt - 2 * (s.txPower.toNat : Int))).toInt := by
    intro s d f q r hq
    rw [List.foldl_append, radio_quiet hq]; rfl
  unfold sentItem at hs
  cases hop : it.op <;> simp only [hop] at hs <;> try exact Bool.noConfusion hs
  · rw [beq_iff_eq] at hs
    obtain ⟨s, f, d, ha⟩ := h.joinSent hop hs
    refine ⟨_, _, ha.ev, ?_⟩
    unfold radio
    rw [List.foldl_append, key _ _ _ _ _ (buildJoin_quiet ..), ← config_hist ha.hist]
    rfl
  · rw [beq_iff_eq] at hs
    obtain ⟨s, f, d, ha⟩ := h.accepted hop hs
    refine ⟨_, _, ha.ev, ?_⟩
    unfold radio
    rw [List.foldl_append, key _ _ _ _ _ (buildUplink_quiet ..), ← config_hist ha.hist]
    rfl

/-- C24, what holds: when the result fits the radio's `int8_t` argument, every frame is handed to the radio with the power
max EIRP - 2 * index asked for. Missing: a lower maximum wraps around (`C24_wraps`), and a power the radio cannot produce is
refused by the radio without the stack noticing. -/
theorem C24_power_partial (h : Hist E (log ++ [it]) s') (hs : sentItem it = true)
    (hf : -128 ≤ (config E log).eirp - 2 * ((config E log).pow : Int)) :
    ∃ pre fr, it.ev = pre ++ [Ev.tx fr] ∧
      (radio (trace log ++ pre)).power = some ((config E log).eirp - 2 * ((config E log).pow : Int)) := by
  obtain ⟨pre, fr, h1, h2⟩ := tx_power h hs
  refine ⟨pre, fr, h1, ?_⟩
  rw [h2]
  have hu : (config E log).eirp ≤ 127 := by
    obtain ⟨s, g1, -⟩ := h.last
    rw [← config_hist g1]
    show s.maxEirp.toInt ≤ 127
    have := BitVec.toInt_lt (x := s.maxEirp)
    omega
  rw [BitVec.toInt_ofInt, Int.bmod_eq_of_le (by omega) (by omega)]

/-- Power index 3 below a maximum of 10 dBm. -/
example : ∃ (log : List Item) (it : Item) (s' : St), Hist Tests.xorEnv (log ++ [it]) s' ∧ sentItem it = true ∧
    (config Tests.xorEnv log).eirp = 10 ∧ (config Tests.xorEnv log).pow = 3 := by
  have hf : Demo.fine [.init .eu868, .setMaxEirp 10, .setTxPower 3] = true := by decide +kernel
  obtain ⟨h1, h2⟩ := Demo.next (op := .send 2 [9] false 0) hf (by decide) (by decide +kernel)
  exact ⟨_, _, _, h1, by decide +kernel, by decide +kernel, by decide +kernel⟩

/-- C24 does not hold of the code for every `int8_t` maximum: -120 dBm and index 7 ask the radio for +122 dBm. -/
theorem C24_wraps : ∃ (log : List Item) (it : Item) (s' : St), Hist Tests.xorEnv (log ++ [it]) s' ∧ sentItem it = true ∧
    (config Tests.xorEnv log).eirp = -120 ∧ (config Tests.xorEnv log).pow = 7 ∧
    (radio (trace (log ++ [it]))).power = some 122 := by
  have hf : Demo.fine [.init .eu868, .setMaxEirp (BitVec.ofInt 8 (-120)), .setTxPower 7] = true := by decide +kernel
  obtain ⟨h1, h2⟩ := Demo.next (op := .send 2 [9] false 0) hf (by decide) (by decide +kernel)
  exact ⟨_, _, _, h1, by decide +kernel, by decide +kernel, by decide +kernel, by decide +kernel⟩

/-! ### C25 -/

/-- C25, what holds: a stack that was never initialised does not transmit. Missing: an initialised stack transmits although no
session was activated (`C25_sends_unjoined`). -/
theorem C25_needs_init_partial (h : Hist E (log ++ [it]) s') (hop : it.op = .send port pld c rnd)
    (hx : exch (trace log) = .off) : it.ret = .err .state ∧ txs it.ev = [] := by
  obtain ⟨s, h1, -, -, -, hs⟩ := h.last
  have hph : s.phase = .notInit := by
    have := (obs_hist h1).1
    rw [hx] at this
    cases hp : s.phase <;> rw [hp] at this <;> first | rfl | exact absurd this (by decide)
  rw [hop] at hs
  obtain ⟨e, hr, hc⟩ := step_send h1.inv hs
  generalize it.ev = ev at *
  cases hc <;> first | exact ⟨hr, rfl⟩ | (next hp _ => rw [hph] at hp; exact absurd hp (by decide)) | skip
  all_goals simp_all

example : ∃ (log : List Item) (it : Item) (s' : St), Hist Tests.xorEnv (log ++ [it]) s' ∧ it.op = .send 2 [9] false 0 ∧
    exch (trace log) = .off ∧ log.length = 1 := by
  have hf : Demo.fine [.setDr 3] = true := by decide +kernel
  obtain ⟨h1, h2⟩ := Demo.next (op := .send 2 [9] false 0) hf (by decide) (by decide +kernel)
  exact ⟨_, _, _, h1, h2, by decide +kernel, by decide +kernel⟩

/-- C25 does not hold of the code: after `uwan_init` alone, `uwan_is_joined` is false, yet an uplink is accepted and transmitted,
with address 0 and the all-zero keys. -/
theorem C25_sends_unjoined : ∃ (log : List Item) (it : Item) (s' : St), Hist Tests.xorEnv (log ++ [it]) s' ∧
    it.op = .send 2 [9] false 0 ∧ (view Tests.xorEnv log).joined = false ∧ it.ret = .err .no ∧
    (txs it.ev).map (fun fr => (parse fr).map (·.devAddr)) = [some 0] ∧
    Ev.aesNew (Vector.replicate 16 0) ∈ it.ev := by
  have hf : Demo.fine [.init .eu868] = true := by decide +kernel
  obtain ⟨h1, h2⟩ := Demo.next (op := .send 2 [9] false 0) hf (by decide) (by decide +kernel)
  exact ⟨_, _, _, h1, h2, by decide +kernel, by decide +kernel, by decide +kernel, by decide +kernel⟩

/-! ### C26 -/

/-- C26, what holds: whatever the port, an accepted uplink enciphers with AppSKey only. Missing: ports 0 and 224..255 are not
refused (`C26_port_zero`). -/
theorem C26_app_key_partial (h : Hist E (log ++ [it]) s') (hop : it.op = .send port pld c rnd) (hr : it.ret = .err .no)
    (k : Block) (hk : Ev.aesNew k ∈ it.ev) : k = (view E log).app := by
  obtain ⟨s, fr, d, ha⟩ := h.accepted hop hr
  rw [ha.ev] at hk
  rw [(view_hist ha.hist).app]
  unfold sentEv txSetup buildUplink encryptPayload calcMic at hk
  have hl : ∀ (aes : Block → Block) (dir : Byte) (a u : U32) (n : Nat) (i : Byte) (l : Bytes),
      Ev.aesNew k ∉ (encLoop aes dir a u n i l).2 := by
    intro aes dir a u n
    induction n with
    | zero => intro i l; cases l <;> simp [encLoop]
    | succ n ih => intro i l; cases l with
      | nil => simp [encLoop]
      | cons b l => simp only [encLoop, List.mem_cons, reduceCtorEq, false_or]; exact ih _ _
  simp only [List.cons_append, List.nil_append, List.mem_cons, reduceCtorEq, List.mem_append, List.not_mem_nil, or_false,
    false_or, List.append_assoc] at hk
  rcases hk with hk | hk
  · split at hk
    · simp only [List.mem_cons, Ev.aesNew.injEq, List.mem_append, reduceCtorEq, List.not_mem_nil, or_false] at hk
      rcases hk with hk | hk
      · exact hk
      · exact absurd hk (hl _ _ _ _ _ _ _)
    · simp at hk
  · simp at hk

/-- C26 does not hold of the code: application payload goes out on port 0, enciphered with AppSKey, which no network can decipher
(port 0 is deciphered with NwkSKey). -/
theorem C26_port_zero : ∃ (log : List Item) (it : Item) (s' : St), Hist Tests.xorEnv (log ++ [it]) s' ∧
    it.op = .send 0 [9] false 0 ∧ it.ret = .err .no ∧ (view Tests.xorEnv log).app ≠ (view Tests.xorEnv log).nwk ∧
    (txs it.ev).map (fun fr => (parse fr).map (·.port)) = [some (some 0)] ∧
    Ev.aesNew (view Tests.xorEnv log).app ∈ it.ev := by
  have hf : Demo.fine [.init .eu868, .setSession 1 0 0 (Vector.replicate 16 1) (Vector.replicate 16 2)] = true := by
    decide +kernel
  obtain ⟨h1, h2⟩ := Demo.next (op := .send 0 [9] false 0) hf (by decide) (by decide +kernel)
  exact ⟨_, _, _, h1, h2, by decide +kernel, by decide +kernel, by decide +kernel, by decide +kernel⟩

end Uwan
