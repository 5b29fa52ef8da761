import Verif.Spec.Downlink
import Verif.Lemmas.Windows

/-! Receptions: from what arrived to what is reported. -/

namespace Uwan
open Spec

variable {E : Env} {log : List Item} {it : Item} {s' : St}

theorem results_append (a b : List Ev) : results (a ++ b) = results a ++ results b := List.filterMap_append ..

theorem results_quiet {q : List Ev} (hq : Quiet q) : results q = [] := by
  unfold results
  rw [List.filterMap_eq_nil_iff]
  intro x hx
  have := hq.all x hx
  cases x <;> first | rfl | exact Bool.noConfusion this

theorem report_results (ev : List Ev) : report ev = (results ev).head?.map (·.1) := by
  induction ev with
  | nil => rfl
  | cons x l ih => cases x <;> first | exact ih | rfl

/-- What an event does, by its outcome. -/
def OutcomeSpec (it : Item) (s' : St) : Outcome → Prop
  | .none => results it.ev = []
  | .timeout => results it.ev = [(.rxTimeout, 0, ⟨none, 0, 0, 0⟩)] ∧ s' = { it.pre with phase := .idle, joinState := false }
  | .crc => results it.ev = [(.rxCrc, 0, ⟨none, 0, 0, 0⟩)] ∧ s' = { it.pre with phase := .idle, joinState := false }
  | .packet l => ∃ m o e, it.op = .event m o ∧ l = o.rxData.take 255 ∧ report it.ev = some e ∧ e ≠ .rxTimeout ∧ e ≠ .rxCrc

theorem JoinCase.code {s : St} {p : DlPkt} {buf : Bytes} {e : Err} {s' : St} {p' : DlPkt} {ev : List Ev}
    (h : JoinCase E s p buf e s' p' ev) : e ≠ .rxTimeout ∧ e ≠ .rxCrc := by
  cases h <;> exact ⟨by decide, by decide⟩

theorem DataCase.code {s : St} {bat : Nat → Byte} {p : DlPkt} {buf : Bytes} {e : Err} {s' : St} {p' : DlPkt} {ev : List Ev}
    (h : DataCase E bat s p buf e s' p' ev) : e ≠ .rxTimeout ∧ e ≠ .rxCrc := by
  cases h <;> exact ⟨by decide, by decide⟩

theorem DlCase.packet {o : Oracle} {s : St} {ev : List Ev} (h : DlCase E o s .no s' ev) :
    ∃ e, report ev = some e ∧ e ≠ .rxTimeout ∧ e ≠ .rxCrc := by
  cases h with
  | none h => exact absurd rfl h
  | join e s2 p q _ hj hc => exact ⟨e, report_shape (.inr rfl) hc.quiet, hc.code⟩
  | data e s2 p q _ hj hc => exact ⟨e, report_shape (.inr rfl) hc.quiet, hc.code⟩

theorem DlCase.failed {o : Oracle} {s : St} {err : Err} {ev : List Ev} (h : DlCase E o s err s' ev) (he : err ≠ .no) :
    results ev = [(err, 0, ⟨Option.none, 0, 0, 0⟩)] ∧ s' = { s with joinState := false } := by
  cases h with
  | none h => exact ⟨rfl, rfl⟩
  | join _ _ _ _ h => exact absurd h he
  | data _ _ _ _ h => exact absurd h he

theorem Hist.end_of (h : Hist E (log ++ [it]) s') : OutcomeSpec it s' (outcome log it) := by
  obtain ⟨s, h1, hpre, -, -, hs⟩ := h.last
  by_cases hev : ∃ m o, it.op = .event m o
  rotate_left
  · have : Spec.outcome log it = .none := by
      unfold Spec.outcome
      split
      · next m o ho => exact absurd ⟨m, o, ho⟩ hev
      · rfl
    rw [this]
    show results it.ev = []
    have hsh := step_shape h1.inv hs
    generalize it.ev = ev at *
    cases hsh with
    | nothing => rfl
    | init => rfl
    | sent f d q l hp hr ho' hf hq => simp only [results_append, results_quiet hq, txSetup]; rfl
    | txDone m o q ho' hp hp' hm hq => exact absurd ⟨m, o, ho'⟩ hev
    | window => rfl
    | rx1Timeout m o d ho' => exact absurd ⟨m, o, ho'⟩ hev
    | result m o a q e mt p ho' => exact absurd ⟨m, o, ho'⟩ hev
  obtain ⟨m, o, hop⟩ := hev
  rw [hop] at hs
  have hst := stage_hist h1
  have hc := step_event h1.inv hs
  obtain ⟨b4, b0, b1, b8⟩ := irqBits m
  have hout : ∀ x, Spec.outcome log it = x → OutcomeSpec it s' x → OutcomeSpec it s' (Spec.outcome log it) := by
    intro x hx; rw [hx]; exact id
  have hrx : ∀ (b : Bool) (n : Nat), b = (n % 2 == 1) → (b = true → n % 2 = 1) ∧ (b = false → ¬ n % 2 = 1) := by
    intro b n hb
    rw [hb]
    exact ⟨fun h => by simpa using h, fun h => by simpa using h⟩
  have k0 := hrx _ _ b0
  have k1 := hrx _ _ b1
  have k8 := hrx _ _ b8
  have hev' := hpre
  generalize hevq : it.ev = ev at *
  subst hpre
  have done : ∀ (l0 l1 : List Ev), ev = l0 ++ l1 → results l0 = [] → irqRxTimeout m = false → irqRxDone m = true →
      (it.pre.phase = .rx1 ∨ it.pre.phase = .rx2) →
      DlCase E o { it.pre with phase := .idle } (if irqCrcError m then .rxCrc else .no) s' l1 →
      OutcomeSpec it s' (Spec.outcome log it) := by
    intro l0 l1 he hl0 ht hd hp hdl
    have hs2 : stage (trace log) = .rx1 ∨ stage (trace log) = .rx2 := by
      rw [hst]; rcases hp with hp | hp <;> rw [hp]
      · exact .inl rfl
      · exact .inr rfl
    cases hx : irqCrcError m with
    | true =>
      rw [hx, if_pos rfl] at hdl
      refine hout .crc ?_ ?_
      · unfold Spec.outcome
        rw [hop]
        simp only [if_pos hs2, if_neg (k0.2 ht), if_pos (k1.1 hd), if_pos (k8.1 hx)]
      · obtain ⟨r1, r2⟩ := hdl.failed (by decide)
        refine ⟨?_, r2⟩
        rw [hevq, he, results_append, hl0, r1]; rfl
    | false =>
      rw [hx] at hdl
      refine hout (.packet (o.rxData.take 255)) ?_ ?_
      · unfold Spec.outcome
        rw [hop]
        simp only [if_pos hs2, if_neg (k0.2 ht), if_pos (k1.1 hd), if_neg (k8.2 hx)]
      · obtain ⟨e, r1, r2⟩ := DlCase.packet hdl
        refine ⟨m, o, e, hop, rfl, ?_, r2⟩
        rw [hevq, he, report_results, results_append, hl0, List.nil_append, ← report_results, r1]
  cases hc with
  | ignore hi =>
    refine hout .none ?_ (by show results it.ev = []; rw [hevq]; rfl)
    unfold Spec.outcome
    rw [hop]
    simp only
    rcases hi with hi | hi | ⟨hi, _⟩ | ⟨hi, ht, hd⟩
    · rw [if_neg (by rw [hst, hi]; decide)]
    · rw [if_neg (by rw [hst, hi]; decide)]
    · rw [if_neg (by rw [hst, hi]; decide)]
    · rw [if_neg (k0.2 ht), if_neg (k1.2 hd)]; split <;> rfl
  | txDone mm ev2 hp hm hmac =>
    refine hout .none ?_ ?_
    · unfold Spec.outcome
      rw [hop]
      simp only
      rw [if_neg (by rw [hst, hp]; decide)]
    · show results it.ev = []
      rw [hevq, results_append, results_quiet (macOnTxComplete_quiet hmac)]; rfl
  | rx1Timeout d hp hm =>
    refine hout .none ?_ (by show results it.ev = []; rw [hevq]; rfl)
    unfold Spec.outcome
    rw [hop]
    simp only
    rw [if_pos (by rw [hst, hp]; decide), if_pos (k0.1 hm), if_neg (by rw [hst, hp]; decide)]
  | rx1Done _ ev1 hp ht hm hc => exact done [.stopTimer .rx2] ev1 rfl rfl ht hm (.inl hp) hc
  | rx2Timeout _ _ hp hm hc =>
    refine hout .timeout ?_ ?_
    · unfold Spec.outcome
      rw [hop]
      simp only
      rw [if_pos (by rw [hst, hp]; decide), if_pos (k0.1 hm), if_pos (by rw [hst, hp]; rfl)]
    · obtain ⟨r1, r2⟩ := hc.failed (by decide)
      exact ⟨by rw [hevq, r1], r2⟩
  | rx2Done _ _ hp ht hm hc => exact done [] ev rfl rfl ht hm (.inr hp) hc

/-- The packet handed over is the one of the specification. -/
theorem DataCase.handed {bat : Nat → Byte} {s : St} {pkt : DlPkt} {buf : Bytes} {e : Err} {s' : St} {p' : DlPkt} {ev : List Ev}
    {v : View} (hv : ViewOf v s) (hpk : pkt = ⟨some buf, 0, pkt.rssi, pkt.snr⟩)
    (hc : DataCase E bat s pkt buf e s' p' ev) (he : e = verdict E v (cfgOf s).down buf) :
    p' = Spec.handed E v (cfgOf s).down buf pkt.rssi pkt.snr := by
  unfold Spec.handed
  rw [← he]
  have hport : ∀ H : DHdr, H.port 0 = BitVec.ofNat 8 ((H.tail.head?.map (·.toNat)).getD 0) := by
    intro H
    unfold DHdr.port
    cases H.tail.head? with
    | none => rfl
    | some b => simp
  have hf0 : pkt.fPort = 0 := by rw [hpk]
  have hd0 : pkt.data = some buf := by rw [hpk]
  cases hc with
  | short => exact hpk
  | mhdr => exact hpk
  | addr => exact hpk
  | fopts => exact hpk
  | fcnt => exact hpk
  | mic H d s2 ev1 hb hl ht ha hf hd hm hi hfr hmic =>
    subst hb
    obtain ⟨f, hp, h1, h2, h3, h4, h5, h6, h7⟩ := H.parse hl hf
    rw [hp]
    simp only
    rw [h5, hf0, hport, hd0]
  | good H d s2 ev1 fr hb hl ht ha hf hd hm hi hfr hmic hlen =>
    subst hb
    obtain ⟨f, hp, h1, h2, h3, h4, h5, h6, h7⟩ := H.parse hl hf
    have hnx : nextDown (cfgOf s).down f.fCnt = some d.toNat := by
      rw [h3]; show nextDown s.session.fCntDown.toNat _ = _
      rw [nextDown_eq, hd]; rfl
    rw [hp]
    simp only [hnx, h5, h6, hf0, hport, Option.getD_some]
    unfold DHdr.plain DHdr.key
    cases htl : H.tail with
    | nil => rfl
    | cons b l =>
      have hk : (if b.toNat = 0 then v.nwk else v.app) =
          if some b = some (0 : Byte) then s.session.nwkSKey else s.session.appSKey := by
        rw [hv.nwk, hv.app]
        by_cases hb : b = 0
        · subst hb; rfl
        · rw [if_neg (by simpa [← BitVec.toNat_inj] using hb), if_neg (by simpa using hb)]
      cases l with
      | nil => simp [crypt]
      | cons c l =>
        simp only [List.head?_cons, Option.map_some, Option.getD_some, List.drop_succ_cons, List.drop_zero]
        rw [hk, encryptPayload_eq, Session.cnt_down, hv.addr]
        rfl

theorem results_end {ev0 ev : List Ev} {e : Err} {m : Byte} {p : DlPkt} (h0 : ev0 = [.stopTimer .rx2] ∨ ev0 = [])
    (hq : Quiet ev) : results (ev0 ++ [.readPacket, .sleep] ++ ev ++ [.downlink e m p]) = [(e, m, p)] := by
  simp only [results_append, results_quiet hq]
  rcases h0 with rfl | rfl <;> rfl

/-- A log determines the state it leads to. -/
theorem Hist.unique {s1 s2 : St} (h1 : Hist E log s1) (h2 : Hist E log s2) : s1 = s2 := by
  have key : ∀ {log : List Item} {s : St}, Hist E log s → s = (log.getLast?.map (·.post)).getD .boot := by
    intro log s h
    cases h with
    | nil => rfl
    | snoc => simp
  rw [key h1, key h2]

/-- A packet received in a data exchange. -/
structure GotData (E : Env) (log : List Item) (it : Item) (l : Bytes) (s s' : St) (mask : Byte) (o : Oracle) (mt : Byte) : Prop where
  op : it.op = .event mask o
  bytes : l = o.rxData.take 255
  hist : Hist E log s
  pre : it.pre = s
  region : s.region.isSome = true
  joinState : s.joinState = false
  phase : s.phase = .rx1 ∨ s.phase = .rx2
  mtype : ∀ b r, l = b :: r → mt.toNat = b.toNat / 32
  results : results it.ev = [(verdict E (view E log) (config E log).down l, mt,
    handed E (view E log) (config E log).down l o.rssi o.snr)]
  cfg : cfgOf s' = { (config E log).receive o l (verdict E (view E log) (config E log).down l) with joining := false }

theorem Hist.gotData (h : Hist E (log ++ [it]) s') {l : Bytes} (ho : outcome log it = .packet l)
    (hj : (config E log).joining = false) :
    ∃ s mask o mt, GotData E log it l s s' mask o mt ∧
      ∃ s2 ev0 p ev, RxData E log it o (verdict E (view E log) (config E log).down l) s s' s2 ev0 p ev := by
  have hout := h.end_of
  rw [ho] at hout
  obtain ⟨m, o, e, hop, hl, hr, h1, h2⟩ := hout
  obtain ⟨s, s2, ev0, p, ev, R⟩ := h.rxData hop hr hj h1 h2
  obtain ⟨sx, hx, hpre, -⟩ := h.last
  have hsx : sx = s := by
    exact Hist.unique hx R.hist
  subst hsx
  have hv0 : ViewOf (view E log) (rxSt o { sx with phase := .idle }) := (view_hist R.hist).same (by constructor <;> rfl)
  have hinv : Inv (rxSt o { sx with phase := .idle }) := { R.inv with region := fun _ => R.region, frame := rxSt_frame o R.inv.frame }
  have hd := R.data.cfg (v := view E log) hinv R.region hv0 rfl
  have hc0 : (cfgOf (rxSt o { sx with phase := .idle })) = config E log := by rw [← config_hist R.hist]; rfl
  rw [hc0, ← hl] at hd
  have hp := R.data.handed hv0 rfl (by rw [hc0, ← hl]; exact hd.1)
  rw [hc0, ← hl] at hp
  have e0 := hd.1
  subst e0
  refine ⟨sx, m, o, rxMtype o { sx with phase := .idle }, ⟨hop, hl, R.hist, hpre, R.region, R.joinState, R.phase, ?_, ?_, ?_⟩, _, _, _, _, R⟩
  · intro b r hb
    exact rxMtype_of (hl ▸ hb)
  · rw [R.ev, results_end R.pre R.quiet, hp]; rfl
  · rw [R.post]
    show { cfgOf s2 with joining := false } = _
    rw [hd.2]

/-! ### Join exchanges -/

theorem JoinCase.verdict {s : St} {pkt : DlPkt} {buf : Bytes} {e : Err} {s' : St} {p' : DlPkt} {ev : List Ev}
    (hc : JoinCase E s pkt buf e s' p' ev) : e = joinVerdict E s.appKey buf := by
  have key : ∀ (blks : List Block), buf = 0x20 :: blks.flatMap (·.toList) → (blks.length = 1 ∨ blks.length = 2) →
      joinVerdict E s.appKey buf = if (0x20 :: joinDec E s.appKey blks).drop (buf.length - 4) =
        joinMic E s.appKey (0x20 :: joinDec E s.appKey blks) then .no else .msgMic := by
    intro blks hb hn
    have hd := joinDec_eq (E := E) s.appKey blks hn buf hb
    have hl := joinDec_length E s.appKey blks
    have hbl : buf.length = 16 * blks.length + 1 := by
      rw [hb]
      rcases hn with hn | hn
      · match blks, hn with
        | [b], _ => simp
      · match blks, hn with
        | [b, c], _ => simp
    unfold joinVerdict
    rw [if_neg (by omega), if_neg (by rw [hb]; simp)]
    simp only
    rw [← hd]
    have e1 : (0x20 :: joinDec E s.appKey blks).drop (buf.length - 4) = (joinDec E s.appKey blks).drop ((joinDec E s.appKey blks).length - 4) := by
      rw [hl, hbl, show 16 * blks.length + 1 - 4 = (16 * blks.length - 4) + 1 by omega, List.drop_succ_cons]
    have e2 : joinMic E s.appKey (0x20 :: joinDec E s.appKey blks) =
        (E.cmac s.appKey (0x20 :: (joinDec E s.appKey blks).take ((joinDec E s.appKey blks).length - 4))).toList.take 4 := by
      unfold joinMic
      rw [show (0x20 :: joinDec E s.appKey blks).length - 4 = ((joinDec E s.appKey blks).length - 4) + 1 by
        rw [List.length_cons, hl]; omega, List.take_succ_cons]
    rw [e1, e2]
  cases hc with
  | len h => unfold joinVerdict; rw [if_pos h]
  | mhdr m body hb hl h =>
    unfold joinVerdict
    rw [if_neg (by omega), if_pos]
    rw [hb]
    simpa using h
  | mic blks fr hb hn hlen h => rw [key blks hb hn, if_neg h]
  | good blks fr J c hb hn hlen h => rw [key blks hb hn, if_pos h]

/-- A packet received in a join exchange. -/
structure GotJoin (E : Env) (log : List Item) (it : Item) (l : Bytes) (s s' : St) (mask : Byte) (o : Oracle) (mt : Byte) (p : DlPkt) :
    Prop where
  op : it.op = .event mask o
  bytes : l = o.rxData.take 255
  hist : Hist E log s
  pre : it.pre = s
  region : s.region.isSome = true
  joinState : s.joinState = true
  phase : s.phase = .rx1 ∨ s.phase = .rx2
  mtype : ∀ b r, l = b :: r → mt.toNat = b.toNat / 32
  results : results it.ev = [(joinVerdict E (view E log).appKey l, mt, p)]
  signal : p.rssi = o.rssi ∧ p.snr = o.snr

theorem JoinCase.signal {s : St} {pkt : DlPkt} {buf : Bytes} {e : Err} {s' : St} {p' : DlPkt} {ev : List Ev}
    (hc : JoinCase E s pkt buf e s' p' ev) : p'.rssi = pkt.rssi ∧ p'.snr = pkt.snr := by
  cases hc <;> exact ⟨rfl, rfl⟩

theorem Hist.gotJoin (h : Hist E (log ++ [it]) s') {l : Bytes} (ho : outcome log it = .packet l)
    (hj : (config E log).joining = true) :
    ∃ s mask o mt p, GotJoin E log it l s s' mask o mt p ∧
      ∃ s2 ev0 ev, RxJoin E log it o (joinVerdict E (view E log).appKey l) s s' s2 ev0 p ev := by
  have hout := h.end_of
  rw [ho] at hout
  obtain ⟨m, o, e, hop, hl, hr, h1, h2⟩ := hout
  obtain ⟨s, s2, ev0, p, ev, R⟩ := h.rxJoin hop hr hj h1 h2
  obtain ⟨sx, hx, hpre, -⟩ := h.last
  have hsx : sx = s := Hist.unique hx R.hist
  subst hsx
  have e0 : e = joinVerdict E (view E log).appKey l := by
    rw [hl, (view_hist R.hist).appKey]
    exact R.join.verdict
  subst e0
  refine ⟨sx, m, o, rxMtype o { sx with phase := .idle }, p, ⟨hop, hl, R.hist, hpre, R.region, R.joinState, R.phase, ?_, ?_,
    R.join.signal⟩, _, _, _, R⟩
  · intro b r hb
    exact rxMtype_of (hl ▸ hb)
  · rw [R.ev, results_end R.pre R.quiet]

/-! ### Genuine downlinks -/

theorem nextDown_inStep {down cnt : Nat} (h : inStep down cnt) : nextDown down (cnt % 65536) = some cnt := by
  unfold nextDown
  simp only
  rcases h with ⟨h1, h2⟩ | ⟨h1, h2, h3⟩
  · rw [if_pos h1, Nat.mod_eq_of_lt h2]
  · by_cases h0 : down = 0
    · rw [if_pos h0, Nat.mod_eq_of_lt (by omega)]
    · have hd : (cnt % 65536 + 65536 - down % 65536) % 65536 = cnt - down := by omega
      rw [if_neg h0, hd, if_neg (by omega), if_pos (by omega), Nat.mod_eq_of_lt (by omega)]
      congr 1
      omega

theorem dataMic_length (E : Env) (key : Block) (dir addr cnt : Nat) (msg : Bytes) :
    (dataMic E key dir addr cnt msg).length = 4 := by simp [dataMic]

/-- What a parser reads in a downlink built by the network. -/
theorem build_parse (D : Downlink) (E : Env) (nwk app : Block) (addr cnt : Nat) (ha : addr < 2 ^ 32) (hf : D.fOpts.length ≤ 15) :
    ∃ f, parse (D.build E nwk app addr cnt) = some f ∧ f.fCnt = cnt % 65536 ∧ f.fOpts = D.fOpts ∧
      f.port = D.body.map (·.1.toNat) ∧
      f.payload = (D.body.map fun b => crypt E (if b.1 = 0 then nwk else app) 1 addr cnt b.2).getD [] ∧
      f.mic = dataMic E nwk 1 addr cnt (signed (D.build E nwk app addr cnt)) ∧
      leNat (((D.build E nwk app addr cnt).drop 1).take 4) = addr ∧
      leNat ((D.build E nwk app addr cnt).take 1) = (if D.confirmed then 5 else 3) * 32 + D.rfu % 8 * 4 ∧
      12 ≤ (D.build E nwk app addr cnt).length ∧
      f.devAddr = addr ∧ f.mtype = (if D.confirmed then 5 else 3) := by
  unfold Downlink.build
  generalize hmsg : D.msg E nwk app addr cnt = msg
  unfold Downlink.msg at hmsg
  generalize htl : D.tail E nwk app addr cnt = tail at *
  unfold Downlink.tail at htl
  rw [signed_append _ _ (dataMic_length ..)]
  have hm4 := dataMic_length E nwk 1 addr cnt msg
  generalize hmic : dataMic E nwk 1 addr cnt msg = mic at *
  have hm : ((if D.confirmed then 5 else 3) * 32 + D.rfu % 8 * 4) < 256 := by split <;> omega
  have hfc : (BitVec.ofNat 8 (D.hi % 16 * 16 + D.fOpts.length) : Byte).toNat % 16 = D.fOpts.length := by
    rw [BitVec.toNat_ofNat]; omega
  have e4 : leBytes 4 addr = [BitVec.ofNat 8 addr, BitVec.ofNat 8 (addr / 256), BitVec.ofNat 8 (addr / 256 / 256),
    BitVec.ofNat 8 (addr / 256 / 256 / 256)] := rfl
  have e2 : leBytes 2 cnt = [BitVec.ofNat 8 cnt, BitVec.ofNat 8 (cnt / 256)] := rfl
  have hshape : msg ++ mic = BitVec.ofNat 8 ((if D.confirmed then 5 else 3) * 32 + D.rfu % 8 * 4) :: BitVec.ofNat 8 addr ::
      BitVec.ofNat 8 (addr / 256) :: BitVec.ofNat 8 (addr / 256 / 256) :: BitVec.ofNat 8 (addr / 256 / 256 / 256) ::
      BitVec.ofNat 8 (D.hi % 16 * 16 + D.fOpts.length) :: BitVec.ofNat 8 cnt :: BitVec.ofNat 8 (cnt / 256) ::
      (D.fOpts ++ tail ++ mic) := by
    rw [← hmsg, e4, e2]; simp
  have ha4 : leNat (leBytes 4 addr) = addr := by rw [leNat_leBytes, Nat.mod_eq_of_lt ha]
  have hc2 : leNat (leBytes 2 cnt) = cnt % 65536 := leNat_leBytes 2 cnt
  rw [e4] at ha4
  rw [e2] at hc2
  rw [hshape, parse_layout _ _ _ _ _ _ _ _ _ _ _ hfc hm4]
  refine ⟨_, rfl, hc2, rfl, ?_, ?_, rfl, ha4, ?_, ?_, ha4, ?_⟩
  · rw [← htl]; cases D.body <;> rfl
  · rw [← htl]; cases D.body <;> rfl
  · show (BitVec.ofNat 8 _ : Byte).toNat + 0 = _
    rw [BitVec.toNat_ofNat, Nat.mod_eq_of_lt hm]; rfl
  · simp only [List.length_cons, List.length_append, hm4]; omega
  · show (BitVec.ofNat 8 _ : Byte).toNat / 32 = _
    rw [BitVec.toNat_ofNat, Nat.mod_eq_of_lt hm]; split <;> omega

theorem build_verdict (D : Downlink) (E : Env) (v : View) (down cnt : Nat) (ha : v.addr < 2 ^ 32) (hf : D.fOpts.length ≤ 15)
    (hs : inStep down cnt) (rssi : BitVec 16) (snr : BitVec 8) :
    verdict E v down (D.build E v.nwk v.app v.addr cnt) = .no ∧
    handed E v down (D.build E v.nwk v.app v.addr cnt) rssi snr = D.shown rssi snr := by
  obtain ⟨f, hp, h1, h2, h3, h4, h5, h6, h7, h8, h9, h10⟩ := build_parse D E v.nwk v.app v.addr cnt ha hf
  generalize D.build E v.nwk v.app v.addr cnt = l at *
  have hnx : nextDown down f.fCnt = some cnt := by rw [h1]; exact nextDown_inStep hs
  have hdd : isDataDown l = true := by
    unfold isDataDown
    rw [h7]
    have : 12 ≤ l.length := h8
    simp only [decide_eq_true this, Bool.true_and, Bool.and_eq_true, Bool.or_eq_true, beq_iff_eq]
    split <;> omega
  have hv : verdict E v down l = .no := by
    unfold verdict
    rw [if_neg (by omega), if_neg (by rw [hdd]; decide), if_neg (by rw [h6]; simp), hp]
    simp only [hnx]
    rw [if_pos h5]
  refine ⟨hv, ?_⟩
  unfold handed Downlink.shown
  rw [hv, hp]
  simp only [h3, h4, hnx, Option.getD_some]
  cases hb : D.body with
  | none => rfl
  | some b =>
    obtain ⟨port, pld⟩ := b
    have : (if port.toNat = 0 then v.nwk else v.app) = if port = 0 then v.nwk else v.app := by
      by_cases hz : port = 0
      · subst hz; rfl
      · rw [if_neg (by simpa [← BitVec.toNat_inj] using hz), if_neg hz]
    simp only [Option.map_some, Option.getD_some, this, crypt_crypt]
    simp

/-! ### The downlink counter -/

theorem receive_down (c : Cfg) (o : Oracle) (l : Bytes) (e : Err) :
    (c.receive o l e).down =
      if e = .no ∨ e = .msgMic then (match parse l with | none => c.down | some f => (nextDown c.down f.fCnt).getD 0)
      else c.down := by
  unfold Cfg.receive
  by_cases h : e = .no ∨ e = .msgMic
  · rw [if_pos h, if_pos h]
    cases parse l with
    | none => rfl
    | some f =>
      simp only
      have := (execBytes_frame o.bat f.fOpts { c.noteAck l with down := (nextDown c.down f.fCnt).getD 0, snr := o.snr.toInt }).down
      split <;> exact this
  · rw [if_neg h, if_neg h]
    split
    · rfl
    · exact noteAck_down c l

/-- A frame that passed the counter check. -/
theorem verdict_counted {v : View} {down : Nat} {l : Bytes} (h : verdict E v down l = .no ∨ verdict E v down l = .msgMic) :
    ∃ f d, parse l = some f ∧ nextDown down f.fCnt = some d := by
  unfold verdict at h
  by_cases h1 : l.length < 12
  · rw [if_pos h1] at h; simp at h
  rw [if_neg h1] at h
  by_cases h2 : (!isDataDown l) = true
  · rw [if_pos h2] at h; simp at h
  rw [if_neg h2] at h
  by_cases h3 : leNat ((l.drop 1).take 4) ≠ v.addr
  · rw [if_pos h3] at h; simp at h
  rw [if_neg h3] at h
  cases hp : parse l with
  | none => rw [hp] at h; simp at h
  | some f =>
    rw [hp] at h
    simp only at h
    cases hn : nextDown down f.fCnt with
    | none => rw [hn] at h; simp at h
    | some d => exact ⟨f, d, rfl, hn⟩

theorem parse_fCnt {l : Bytes} {f : DataFrame} (h : parse l = some f) : f.fCnt < 65536 := by
  unfold parse at h
  simp only at h
  split at h
  · simp at h
  · cases h
    have := leNat_lt ((l.drop 6).take 2)
    have hl : ((l.drop 6).take 2).length ≤ 2 := by simp; omega
    have : 256 ^ ((l.drop 6).take 2).length ≤ 256 ^ 2 := Nat.pow_le_pow_right (by decide) hl
    show leNat ((l.drop 6).take 2) < 65536
    omega

theorem nextDown_gt {c f d : Nat} (h : nextDown c f = some d) (h0 : c ≠ 0) (hc : c + 131071 < 2 ^ 32) (hf : f < 65536) :
    c < d ∧ d ≤ c + 131071 := by
  unfold nextDown at h
  simp only [if_neg h0] at h
  by_cases h1 : (f + 65536 - c % 65536) % 65536 = 0
  · rw [if_pos h1] at h; simp at h
  rw [if_neg h1] at h
  by_cases h2 : (f + 65536 - c % 65536) % 65536 ≤ 16384
  · rw [if_pos h2] at h
    simp only [Option.some.injEq] at h
    rw [Nat.mod_eq_of_lt (by omega)] at h
    omega
  · rw [if_neg h2] at h
    simp only [Option.some.injEq] at h
    rw [Nat.mod_eq_of_lt (by omega)] at h
    omega

/-- What an operation that starts no session does to the counter and the keys. -/
theorem down_next (h : Hist E (log ++ [it]) s') (hn : newSession it = false) :
    (view E (log ++ [it])).nwk = (view E log).nwk ∧ (view E (log ++ [it])).app = (view E log).app ∧
    (view E (log ++ [it])).addr = (view E log).addr ∧
    ((config E (log ++ [it])).down = (config E log).down ∨
      ∃ l f d, outcome log it = .packet l ∧ (config E log).joining = false ∧ parse l = some f ∧
        nextDown (config E log).down f.fCnt = some d ∧ (config E (log ++ [it])).down = d) := by
  have hjr : ∀ m o, it.op = .event m o → joinReported it.ev = false := by
    intro m o hop
    unfold newSession at hn
    rw [hop] at hn
    exact hn
  refine ⟨?_, ?_, ?_, ?_⟩
  · rw [view_snoc]; unfold View.next
    unfold newSession at hn
    cases hop : it.op <;> rw [hop] at hn <;> simp only <;> first | rfl | (simp at hn; done) | (split <;> rfl) | skip
    rw [hjr _ _ hop]; rfl
  · rw [view_snoc]; unfold View.next
    unfold newSession at hn
    cases hop : it.op <;> rw [hop] at hn <;> simp only <;> first | rfl | (simp at hn; done) | (split <;> rfl) | skip
    rw [hjr _ _ hop]; rfl
  · rw [view_snoc]; unfold View.next
    unfold newSession at hn
    cases hop : it.op <;> rw [hop] at hn <;> simp only <;> first | rfl | (simp at hn; done) | (split <;> rfl) | skip
    rw [hjr _ _ hop]; rfl
  · by_cases hp : ∃ l, outcome log it = .packet l ∧ (config E log).joining = false
    · obtain ⟨l, ho, hj⟩ := hp
      obtain ⟨s, m, o, mt, G, -⟩ := h.gotData ho hj
      have e : (config E (log ++ [it])).down = (cfgOf s').down := by rw [config_hist h]
      rw [e, G.cfg]
      show ((config E log).receive o l _).down = _ ∨ _
      rw [receive_down]
      by_cases hv : verdict E (view E log) (config E log).down l = .no ∨ verdict E (view E log) (config E log).down l = .msgMic
      · right
        obtain ⟨f, d, h1, h2⟩ := verdict_counted hv
        refine ⟨l, f, d, ho, hj, h1, h2, ?_⟩
        rw [if_pos hv, h1]
        simp [h2]
      · left
        rw [if_neg hv]
    · left
      rw [config_snoc]
      unfold Cfg.next
      unfold newSession at hn
      cases hop : it.op <;> rw [hop] at hn <;> simp only <;>
        first
          | rfl
          | (simp at hn; done)
          | (unfold Cfg.enable; split <;> rfl)
          | (unfold Cfg.setChannel; split <;> rfl)
          | (unfold Cfg.answer; split <;> rfl)
          | (split <;> rfl)
          | skip
      rename_i m o
      have hout := h.end_of
      cases ho : outcome log it with
      | none => rw [ho] at hout; rw [report_results, show results it.ev = [] from hout]; simp only [List.head?_nil, Option.map_none]; split <;> rfl
      | timeout =>
        rw [ho] at hout; rw [report_results, hout.1]
        simp only [List.head?_cons, Option.map_some]
        split
        · rfl
        · rw [receive_down]; rfl
      | crc =>
        rw [ho] at hout; rw [report_results, hout.1]
        simp only [List.head?_cons, Option.map_some]
        split
        · rfl
        · rw [receive_down]; rfl
      | packet l =>
        have hj : (config E log).joining = true := by
          cases hj : (config E log).joining with
          | true => rfl
          | false => exact absurd ⟨l, ho, hj⟩ hp
        have := joinReported_iff h hop
        rw [hjr _ _ hop, hj, Bool.true_and] at this
        have hne : report it.ev ≠ some .no := by simpa using this.symm
        cases hr : report it.ev with
        | none => simp only; split <;> rfl
        | some e =>
          rw [hr] at hne
          simp only [hj, ↓reduceIte]
          rw [if_neg (by simpa using hne)]

/-- Over operations that start no session. -/
theorem down_seg {seg : List Item} : ∀ {s' : St}, Hist E (log ++ seg) s' → (∀ x ∈ seg, newSession x = false) →
    (config E log).down ≠ 0 → (config E log).down + 131071 * reports (trace seg) < 2 ^ 32 →
    (view E (log ++ seg)).nwk = (view E log).nwk ∧ (view E (log ++ seg)).addr = (view E log).addr ∧
    (config E log).down ≤ (config E (log ++ seg)).down ∧
    (config E (log ++ seg)).down ≤ (config E log).down + 131071 * reports (trace seg) := by
  refine snoc_induction (P := fun seg => ∀ {s' : St}, Hist E (log ++ seg) s' → (∀ x ∈ seg, newSession x = false) →
    (config E log).down ≠ 0 → (config E log).down + 131071 * reports (trace seg) < 2 ^ 32 →
    (view E (log ++ seg)).nwk = (view E log).nwk ∧ (view E (log ++ seg)).addr = (view E log).addr ∧
    (config E log).down ≤ (config E (log ++ seg)).down ∧
    (config E (log ++ seg)).down ≤ (config E log).down + 131071 * reports (trace seg)) ?_ ?_ seg
  · intro s' h _ _ _
    simp only [List.append_nil]
    exact ⟨trivial, trivial, Nat.le_refl _, Nat.le_add_right ..⟩
  · intro seg x ih s' h hn h0 hb
    rw [← List.append_assoc] at h ⊢
    have hr : reports (trace (seg ++ [x])) = reports (trace seg) + reports x.ev := by
      unfold trace reports
      rw [List.flatMap_append, List.countP_append]
      simp
    rw [hr] at hb ⊢
    obtain ⟨s1, h1, -⟩ := h.last
    obtain ⟨i1, i2, i3, i4⟩ := ih h1 (fun y hy => hn y (by simp [hy])) h0 (by omega)
    obtain ⟨n1, n2, n3, n4⟩ := down_next h (hn x (by simp))
    refine ⟨n1.trans i1, n3.trans i2, ?_⟩
    rcases n4 with n4 | ⟨l, f, d, ho, hj, hp, hd, he⟩
    · rw [n4]; omega
    · obtain ⟨s, m, o, mt, G, -⟩ := h.gotData ho hj
      have hone : reports x.ev = 1 := by
        have := G.results
        have e : reports x.ev = (results x.ev).length := by
          unfold reports results
          rw [List.countP_eq_length_filter, List.length_filterMap_eq_countP, List.countP_eq_length_filter]
          congr 1
          apply List.filter_congr
          intro y _
          cases y <;> rfl
        rw [e, this]; rfl
      have := nextDown_gt hd (by omega) (by omega) (parse_fCnt hp)
      rw [he]
      omega

end Uwan
