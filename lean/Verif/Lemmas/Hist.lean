import Verif.Lemmas.Step

/-! Histories: composition, invariant, inversion of single operations, classification of effects. -/

namespace Uwan

variable {E : Env}

theorem Seg.trans {s s1 s2 : St} {l1 l2 : List Item} (h1 : Seg E s l1 s1) (h2 : Seg E s1 l2 s2) :
    Seg E s (l1 ++ l2) s2 := by
  induction h2 with
  | nil => rw [List.append_nil]; exact h1
  | snoc h hv hs ih => rw [← List.append_assoc]; exact ih.snoc hv hs

theorem Seg.one {s s' : St} {op : Op} {r : Ret} {ev : List Ev} (hv : op.Valid) (hs : step E s op = .ok (r, s', ev)) :
    Seg E s [⟨s, op, r, ev, s'⟩] s' := by
  have := Seg.snoc (Seg.nil (E := E) (s := s)) hv hs
  simpa using this

theorem Seg.inv {s s' : St} {log : List Item} (h : Seg E s log s') (hi : Inv s) : Inv s' := by
  induction h with
  | nil => exact hi
  | snoc h hv hs ih => exact step_inv ih hv hs

theorem Hist.inv {s : St} {log : List Item} (h : Hist E log s) : Inv s := Seg.inv h Inv.boot

/-- Splitting a segment. -/
theorem Seg.split {s s2 : St} {log : List Item} (h : Seg E s log s2) :
    ∀ l1 l2, log = l1 ++ l2 → ∃ s1, Seg E s l1 s1 ∧ Seg E s1 l2 s2 := by
  induction h with
  | nil =>
    intro l1 l2 e
    obtain ⟨rfl, rfl⟩ := List.append_eq_nil_iff.mp e.symm
    exact ⟨_, .nil, .nil⟩
  | @snoc log sa sb op r ev h hv hs ih =>
    intro l1 l2 e
    rcases List.eq_nil_or_concat l2 with rfl | ⟨l2', it, rfl⟩
    · rw [List.append_nil] at e
      exact ⟨_, e ▸ h.snoc hv hs, .nil⟩
    · rw [List.concat_eq_append] at *
      rw [← List.append_assoc] at e
      obtain ⟨e1, e2⟩ := List.append_inj' e rfl
      obtain ⟨s1, h1, h2⟩ := ih l1 l2' e1
      simp only [List.cons.injEq, and_true] at e2
      subst e2
      exact ⟨s1, h1, h2.snoc hv hs⟩

theorem Seg.nil_inv {s s' : St} (h : Seg E s [] s') : s' = s := by
  generalize e : ([] : List Item) = l at h
  cases h with
  | nil => rfl
  | snoc => simp at e

theorem Seg.one_inv {s s' : St} {it : Item} (h : Seg E s [it] s') :
    it.pre = s ∧ it.post = s' ∧ it.op.Valid ∧ step E s it.op = .ok (it.ret, s', it.ev) := by
  generalize e : [it] = l at h
  cases h with
  | nil => simp at e
  | @snoc log sa sb op r ev h hv hs =>
    obtain ⟨e1, e2⟩ := List.append_inj' (s₁ := []) (t₁ := [it]) e rfl
    subst e1
    simp only [List.cons.injEq, and_true] at e2
    subst e2
    have := h.nil_inv
    subst this
    exact ⟨rfl, rfl, hv, hs⟩

theorem Seg.cons_inv {s s' : St} {it : Item} {l : List Item} (h : Seg E s (it :: l) s') :
    it.pre = s ∧ it.op.Valid ∧ step E s it.op = .ok (it.ret, it.post, it.ev) ∧ Seg E it.post l s' := by
  obtain ⟨s1, h1, h2⟩ := h.split [it] l rfl
  obtain ⟨e1, e2, hv, hs⟩ := h1.one_inv
  rw [e2]
  exact ⟨e1, hv, hs, h2⟩

theorem Seg.cons {s s1 s' : St} {op : Op} {r : Ret} {ev : List Ev} {l : List Item} (hv : op.Valid)
    (hs : step E s op = .ok (r, s1, ev)) (h : Seg E s1 l s') : Seg E s (⟨s, op, r, ev, s1⟩ :: l) s' :=
  (Seg.one hv hs).trans h

theorem logOf_seg : ∀ (ops : List Op) (s s' : St) (log : List Item), (∀ op ∈ ops, op.Valid) →
    logOf E s ops = some (log, s') → Seg E s log s'
  | [], s, s', log, _, h => by
    simp only [logOf, Option.some.injEq, Prod.mk.injEq] at h
    obtain ⟨rfl, rfl⟩ := h; exact .nil
  | op :: ops, s, s', log, hv, h => by
    simp only [logOf] at h
    split at h
    · next r s1 ev hs =>
      split at h
      · next l s2 hl =>
        simp only [Option.some.injEq, Prod.mk.injEq] at h
        obtain ⟨rfl, rfl⟩ := h
        exact .cons (hv _ (by simp)) hs (logOf_seg ops _ _ _ (fun o ho => hv o (by simp [ho])) hl)
      · simp at h
    · simp at h

/-! ### Single operations -/

theorem step_send {s s' : St} (h : Inv s) {port : Byte} {pld : Bytes} {c : Bool} {rnd : Nat} {r : Ret} {ev : List Ev}
    (hs : step E s (.send port pld c rnd) = .ok (r, s', ev)) :
    ∃ e, r = .err e ∧ SendCase E s port pld c rnd e s' ev := by
  obtain ⟨e, s1, ev1, he, hc⟩ := sendFrame_cases E h port pld c rnd
  simp only [step, he, bind, Except.bind, Except.ok.injEq, Prod.mk.injEq] at hs
  obtain ⟨rfl, rfl, rfl⟩ := hs
  exact ⟨e, rfl, hc⟩

theorem step_join {s s' : St} (h : Inv s) {r1 r2 : Nat} {r : Ret} {ev : List Ev}
    (hs : step E s (.join r1 r2) = .ok (r, s', ev)) :
    ∃ e, r = .err e ∧ JoinReqCase E s r1 r2 e s' ev := by
  obtain ⟨e, s1, ev1, he, hc⟩ := uwanJoin_cases E h r1 r2
  simp only [step, he, bind, Except.bind, Except.ok.injEq, Prod.mk.injEq] at hs
  obtain ⟨rfl, rfl, rfl⟩ := hs
  exact ⟨e, rfl, hc⟩

theorem step_event {s s' : St} (h : Inv s) {m : Byte} {o : Oracle} {r : Ret} {ev : List Ev}
    (hs : step E s (.event m o) = .ok (r, s', ev)) : EvtCase E o s m s' ev := by
  rcases evtHandler_cases E o h m with ⟨s1, ev1, he, hc⟩ | ⟨_, he⟩
  · simp only [step, he, bind, Except.bind, Except.ok.injEq, Prod.mk.injEq] at hs
    obtain ⟨_, rfl, rfl⟩ := hs
    exact hc
  · simp [step, he, bind, Except.bind] at hs

/-- The cases of the timer callback. -/
theorem step_timer {s s' : St} {id : TimerId} {r : Ret} {ev : List Ev}
    (hs : step E s (.timer id) = .ok (r, s', ev)) :
    s' = s ∧ (ev = [] ∨ (ev = [.rx 255 8 0] ∧ ((s.phase = .rx1 ∧ id = .rx1) ∨ (s.phase = .rx2 ∧ id = .rx2)))) := by
  simp only [step, Except.ok.injEq, Prod.mk.injEq] at hs
  obtain ⟨_, rfl, rfl⟩ := hs
  unfold timerCallback
  split
  · next h => exact ⟨rfl, .inr ⟨rfl, .inl h⟩⟩
  · split
    · next h => exact ⟨rfl, .inr ⟨rfl, .inr h⟩⟩
    · exact ⟨rfl, .inl rfl⟩

/-- Calls that only configure the stack: no effects outside. -/
def Op.isCfg : Op → Bool
  | .init _ | .join .. | .send .. | .timer _ | .event .. => false
  | _ => true

/-- What configuration calls never change. -/
structure CfgFrame (s s' : St) : Prop where
  phase : s'.phase = s.phase
  region : s'.region = s.region
  pp : s'.pp = s.pp
  frame : s'.frame = s.frame
  rx1Delay : s'.rx1Delay = s.rx1Delay
  rx2Delay : s'.rx2Delay = s.rx2Delay
  joinState : s'.joinState = s.joinState
  devNonce : s'.devNonce = s.devNonce
  snr : s'.snr = s.snr

theorem MacFrame.cfg {s s' : St} (h : MacFrame s s') : CfgFrame s s' :=
  ⟨h.phase, h.region, h.pp, h.frame, h.rx1Delay, h.rx2Delay, h.joinState, h.devNonce, h.snr⟩

theorem step_cfg {s s' : St} {op : Op} {r : Ret} {ev : List Ev} (hc : op.isCfg = true)
    (hs : step E s op = .ok (r, s', ev)) : ev = [] ∧ CfgFrame s s' := by
  cases op <;> simp only [Op.isCfg, Bool.false_eq_true] at hc <;>
    simp only [step, Except.ok.injEq, Prod.mk.injEq] at hs <;> obtain ⟨-, rfl, rfl⟩ := hs <;> refine ⟨rfl, ?_⟩
  case setRx2 f dr => exact (macFrame_setRx2 s f dr).cfg
  case setDr dr => unfold setDr; split <;> constructor <;> rfl
  case setNbTrans n =>
    unfold setNbTrans
    have := macFrame_setNbTransInt s n
    simp only
    split
    · have := this.cfg; exact { this with }
    · constructor <;> rfl
  case setTxPower n =>
    unfold setTxPower
    have := macFrame_setTxPowerInt s n
    simp only
    split
    · have := this.cfg; exact { this with }
    · constructor <;> rfl
  case setRx1DrOffset n => exact (macFrame_setRx1DrOffset s n).cfg
  case setRx1Delay n => exact (macFrame_setRx1Delay s n).cfg
  all_goals constructor <;> rfl

/-! ### Effects that are not radio, timer or result calls -/

/-- Crypto calls, MAC callbacks and the shift mark. -/
def Ev.quiet : Ev → Bool
  | .linkCheckResult .. | .getBattery | .getDeviceTime | .deviceTimeResult .. | .aesNew _ | .aesEncrypt _ | .aesDel
  | .cmacNew _ | .cmacUpdate _ | .cmacFinish | .cmacDel | .ubShift => true
  | _ => false

/-- All effects are quiet. -/
structure Quiet (l : List Ev) : Prop where
  all : ∀ e ∈ l, e.quiet = true

theorem Quiet.nil : Quiet [] := ⟨by intro e h; simp at h⟩
theorem Quiet.append {a b : List Ev} (ha : Quiet a) (hb : Quiet b) : Quiet (a ++ b) := by
  refine ⟨fun e h => ?_⟩
  rcases List.mem_append.mp h with h | h
  · exact ha.all e h
  · exact hb.all e h
theorem Quiet.cons {e : Ev} {l : List Ev} (he : e.quiet = true) (h : Quiet l) : Quiet (e :: l) := by
  refine ⟨fun x hx => ?_⟩
  rcases List.mem_cons.mp hx with rfl | hx
  · exact he
  · exact h.all x hx

theorem shiftMark_quiet (b : Byte) : Quiet (shiftMark b) := by
  unfold shiftMark; split
  · exact Quiet.nil.cons rfl
  · exact Quiet.nil

theorem calcMic_quiet (ss : Session) (m : Bytes) (k : Block) (d : Byte) (b : Bool) :
    Quiet (calcMic E ss m k d b).2 := by
  unfold calcMic
  cases b
  · exact (((Quiet.nil.cons rfl).cons rfl).cons rfl).cons rfl
  · exact ((((Quiet.nil.cons rfl).cons rfl).cons rfl).cons rfl).cons rfl

theorem encLoop_quiet (aes : Block → Block) (dir : Byte) (addr fcnt : U32) : ∀ n i l,
    Quiet (encLoop aes dir addr fcnt n i l).2
  | 0, _, [] => Quiet.nil
  | 0, _, _ :: _ => Quiet.nil
  | _ + 1, _, [] => Quiet.nil
  | n + 1, i, b :: l => (encLoop_quiet aes dir addr fcnt n (i + 1) ((b :: l).drop 16)).cons rfl

theorem encryptPayload_quiet (ss : Session) (buf : Bytes) (key : Block) (dir : Byte) :
    Quiet (encryptPayload E ss buf key dir).2 := by
  unfold encryptPayload
  exact ((encLoop_quiet _ _ _ _ _ _ _).cons rfl).append (Quiet.nil.cons rfl)

theorem deriveSessionKey_quiet (k : Block) (t : Byte) (a b c : U32) : Quiet (deriveSessionKey E k t a b c).2 := by
  unfold deriveSessionKey; exact ((Quiet.nil.cons rfl).cons rfl).cons rfl

theorem buildUplink_quiet (s : St) (p : Byte) (l : Bytes) (c : Bool) : Quiet (buildUplink E s p l c).2 := by
  unfold buildUplink
  simp only
  refine Quiet.append ?_ (calcMic_quiet ..)
  split
  · exact encryptPayload_quiet ..
  · exact Quiet.nil

theorem buildJoin_quiet (s : St) (n : U32) : Quiet (buildJoin E s n).2 := calcMic_quiet (E := E) ..

theorem runHandler_quiet {h : MacHandler} {s : St} {pld : Bytes} {bat : Byte} {ok : Bool} {s' : St} {ev : List Ev}
    (he : runHandler h s pld bat = .ok (ok, s', ev)) : Quiet ev := by
  cases h <;> simp only [runHandler, hLinkCheck, hLinkAdr, hDutyCycle, hRxParamSetup, hDevStatus, hNewChannel,
    hRxTimingSetup, hDeviceTime] at he <;>
    repeat' first
      | (split at he)
      | (simp only [Except.ok.injEq, Prod.mk.injEq, reduceCtorEq] at he)
      | (obtain ⟨_, _, rfl⟩ := he)
  all_goals first
    | exact Quiet.nil
    | exact Quiet.nil.cons rfl
    | exact (shiftMark_quiet _).append (Quiet.nil.cons rfl)
    | exact he.elim

theorem macLoop_quiet (bat : Nat → Byte) : ∀ (n : Nat) (s s' : St) (l : Bytes) (ev : List Ev),
    macLoop bat n s l = .ok (s', ev) → Quiet ev
  | 0, s, s', [], ev, h => by simp only [macLoop, Except.ok.injEq, Prod.mk.injEq] at h; rw [← h.2]; exact Quiet.nil
  | 0, s, s', _ :: _, ev, h => by simp [macLoop] at h
  | n + 1, s, s', [], ev, h => by simp only [macLoop, Except.ok.injEq, Prod.mk.injEq] at h; rw [← h.2]; exact Quiet.nil
  | n + 1, s, s', cid :: rest, ev, h => by
    simp only [macLoop] at h
    split at h
    · simp only [Except.ok.injEq, Prod.mk.injEq] at h; rw [← h.2]; exact Quiet.nil
    · next c hc =>
      split at h
      · cases hr : runHandler c.handler s rest (bat rest.length) with
        | error u => simp [hr, bind, Except.bind] at h
        | ok x =>
          obtain ⟨ok, s1, ev1⟩ := x
          simp only [hr, bind, Except.bind] at h
          cases ok with
          | false =>
            simp only [Bool.false_eq_true, ↓reduceIte, Except.ok.injEq, Prod.mk.injEq] at h
            rw [← h.2]; exact runHandler_quiet hr
          | true =>
            simp only [↓reduceIte] at h
            cases hl : macLoop bat n s1 (rest.drop c.pldSize) with
            | error u => simp [hl] at h
            | ok y =>
              obtain ⟨s2, ev2⟩ := y
              simp only [hl, Except.ok.injEq, Prod.mk.injEq] at h
              rw [← h.2]; exact (runHandler_quiet hr).append (macLoop_quiet bat n _ _ _ _ hl)
      · simp only [Except.ok.injEq, Prod.mk.injEq] at h; rw [← h.2]; exact Quiet.nil

theorem DHdr.plain_quiet (H : DHdr) (ss : Session) (d : U32) : Quiet (H.plain E ss d).2 := by
  unfold DHdr.plain; split
  · exact Quiet.nil
  · exact Quiet.nil
  · exact encryptPayload_quiet ..

theorem DataCase.quiet {bat : Nat → Byte} {s : St} {pkt : DlPkt} {buf : Bytes} {e : Err} {s' : St} {p' : DlPkt}
    {ev : List Ev} (hc : DataCase E bat s pkt buf e s' p' ev) : Quiet ev := by
  cases hc with
  | short => exact Quiet.nil
  | mhdr => exact Quiet.nil
  | addr => exact shiftMark_quiet _
  | fopts => exact shiftMark_quiet _
  | fcnt => exact shiftMark_quiet _
  | mic H d s2 ev1 hb hl ht ha hf hd hm =>
    exact ((shiftMark_quiet _).append (macLoop_quiet _ _ _ _ _ _ hm)).append (calcMic_quiet ..)
  | good H d s2 ev1 fr hb hl ht ha hf hd hm =>
    exact (((shiftMark_quiet _).append (macLoop_quiet _ _ _ _ _ _ hm)).append (calcMic_quiet ..)).append
      (H.plain_quiet ..)

theorem joinDecEv_quiet (key : Block) (b : List Block) : Quiet (joinDecEv key b) := by
  unfold joinDecEv
  refine Quiet.append (Quiet.cons rfl ?_) (Quiet.nil.cons rfl)
  refine ⟨fun e he => ?_⟩
  obtain ⟨x, _, rfl⟩ := List.mem_map.mp he
  rfl

theorem joinMicEv_quiet (key : Block) (b : Bytes) : Quiet (joinMicEv key b) :=
  (((Quiet.nil.cons rfl).cons rfl).cons rfl).cons rfl

theorem JoinCase.quiet {s : St} {pkt : DlPkt} {buf : Bytes} {e : Err} {s' : St} {p' : DlPkt}
    {ev : List Ev} (hc : JoinCase E s pkt buf e s' p' ev) : Quiet ev := by
  cases hc with
  | len => exact Quiet.nil
  | mhdr => exact Quiet.nil
  | mic => exact (joinDecEv_quiet ..).append (joinMicEv_quiet ..)
  | good blks fr J c hb hn hlen hok hJ hc hci =>
    exact ((((joinDecEv_quiet ..).append (joinMicEv_quiet ..)).append (shiftMark_quiet _)).append
      (deriveSessionKey_quiet ..)).append (deriveSessionKey_quiet ..)

theorem macOnTxComplete_quiet {m m' : Mac} {t : U32} {ev : List Ev} (h : macOnTxComplete m t = .ok (m', ev)) :
    Quiet ev := by
  unfold macOnTxComplete at h
  split at h
  · split at h
    · simp at h
    · split at h <;> simp only [Except.ok.injEq, Prod.mk.injEq] at h <;> rw [← h.2]
      · exact Quiet.nil.cons rfl
      · exact Quiet.nil
  · simp only [Except.ok.injEq, Prod.mk.injEq] at h; rw [← h.2]; exact Quiet.nil

/-! ### What handling a received packet never changes -/

/-- Common frame of data and join downlinks. -/
structure DlFrame (s s' : St) : Prop where
  phase : s'.phase = s.phase
  region : s'.region = s.region
  pp : s'.pp = s.pp
  rx1Delay : s'.rx1Delay = s.rx1Delay
  rx2Delay : s'.rx2Delay = s.rx2Delay
  devNonce : s'.devNonce = s.devNonce
  devEui : s'.devEui = s.devEui
  appEui : s'.appEui = s.appEui
  appKey : s'.appKey = s.appKey
  defaultDr : s'.defaultDr = s.defaultDr
  defaultNbTrans : s'.defaultNbTrans = s.defaultNbTrans
  defaultTxPower : s'.defaultTxPower = s.defaultTxPower
  maxEirp : s'.maxEirp = s.maxEirp
  saveDevTime : s'.mac.saveDevTime = s.mac.saveDevTime
  devTime : s'.mac.devTime = s.mac.devTime
  cbs : s'.mac.cbs = s.mac.cbs
  adrEnabled : s'.adr.enabled = s.adr.enabled
  adrLimit : s'.adr.ackLimit = s.adr.ackLimit
  adrDelay : s'.adr.ackDelay = s.adr.ackDelay

theorem DlFrame.refl (s : St) : DlFrame s s := by constructor <;> rfl

theorem MacFrame.dl {s s' : St} (h : MacFrame s s') : DlFrame s s' where
  phase := h.phase
  region := h.region
  pp := h.pp
  rx1Delay := h.rx1Delay
  rx2Delay := h.rx2Delay
  devNonce := h.devNonce
  devEui := h.devEui
  appEui := h.appEui
  appKey := h.appKey
  defaultDr := h.defaultDr
  defaultNbTrans := h.defaultNbTrans
  defaultTxPower := h.defaultTxPower
  maxEirp := h.maxEirp
  saveDevTime := h.saveDevTime
  devTime := h.devTime
  cbs := h.cbs
  adrEnabled := by rw [h.adr]
  adrLimit := by rw [h.adr]
  adrDelay := by rw [h.adr]

theorem DlFrame.trans {a b c : St} (h : DlFrame a b) (g : DlFrame b c) : DlFrame a c where
  phase := g.phase.trans h.phase
  region := g.region.trans h.region
  pp := g.pp.trans h.pp
  rx1Delay := g.rx1Delay.trans h.rx1Delay
  rx2Delay := g.rx2Delay.trans h.rx2Delay
  devNonce := g.devNonce.trans h.devNonce
  devEui := g.devEui.trans h.devEui
  appEui := g.appEui.trans h.appEui
  appKey := g.appKey.trans h.appKey
  defaultDr := g.defaultDr.trans h.defaultDr
  defaultNbTrans := g.defaultNbTrans.trans h.defaultNbTrans
  defaultTxPower := g.defaultTxPower.trans h.defaultTxPower
  maxEirp := g.maxEirp.trans h.maxEirp
  saveDevTime := g.saveDevTime.trans h.saveDevTime
  devTime := g.devTime.trans h.devTime
  cbs := g.cbs.trans h.cbs
  adrEnabled := g.adrEnabled.trans h.adrEnabled
  adrLimit := g.adrLimit.trans h.adrLimit
  adrDelay := g.adrDelay.trans h.adrDelay

theorem mark_dl (H : DHdr) (s : St) : DlFrame s (H.mark s) := by
  unfold DHdr.mark markAck; split <;> constructor <;> rfl

theorem count_dl (H : DHdr) (s : St) (d : U32) (x : BitVec 8) : DlFrame s (H.count s d x) := by
  refine (mark_dl H s).trans ?_
  constructor <;> rfl

theorem DataCase.dl {bat : Nat → Byte} {s : St} {pkt : DlPkt} {buf : Bytes} {e : Err} {s' : St} {p' : DlPkt}
    {ev : List Ev} (hc : DataCase E bat s pkt buf e s' p' ev) : DlFrame s s' := by
  cases hc with
  | short => exact .refl _
  | mhdr => exact .refl _
  | addr H => exact mark_dl H s
  | fopts H => exact mark_dl H s
  | fcnt H => exact mark_dl H s
  | mic H d s2 ev1 hb hl ht ha hf hd hm hi hfr => exact (count_dl H s d _).trans hfr.dl
  | good H d s2 ev1 fr hb hl ht ha hf hd hm hi hfr =>
    refine ((count_dl H s d _).trans hfr.dl).trans ?_
    constructor <;> rfl

theorem joinRxParams_dl (s : St) (dl dly : Byte) : DlFrame s (joinRxParams s dl dly) := by
  unfold joinRxParams; simp only; split <;> split <;> constructor <;> rfl

theorem JMsg.done_dl (J : JMsg) (s : St) (c : Chan) : DlFrame s (J.done E s c) := by
  refine (joinRxParams_dl s J.dl J.dly).trans ?_
  constructor <;> rfl

theorem JoinCase.dl {s : St} {pkt : DlPkt} {buf : Bytes} {e : Err} {s' : St} {p' : DlPkt}
    {ev : List Ev} (hc : JoinCase E s pkt buf e s' p' ev) : DlFrame s s' := by
  cases hc with
  | len => exact .refl _
  | mhdr => exact .refl _
  | mic => constructor <;> rfl
  | good blks fr J c hb hn hlen hok hJ hc hci =>
    exact DlFrame.trans (b := { s with frame := fr }) (by constructor <;> rfl) (J.done_dl _ _)

theorem DlCase.dl {o : Oracle} {s : St} {err : Err} {s' : St} {ev : List Ev} (hc : DlCase E o s err s' ev) :
    DlFrame s s' ∧ s'.joinState = false := by
  cases hc with
  | none => exact ⟨by constructor <;> rfl, rfl⟩
  | join e s' p ev _ _ hc =>
    exact ⟨(DlFrame.trans (b := rxSt o s) (by constructor <;> rfl) hc.dl).trans (by constructor <;> rfl), rfl⟩
  | data e s' p ev _ _ hc =>
    exact ⟨(DlFrame.trans (b := rxSt o s) (by constructor <;> rfl) hc.dl).trans (by constructor <;> rfl), rfl⟩

/-- The effects of `handle_downlink`: quiet calls between putting the radio to sleep and the result. -/
theorem DlCase.shape {o : Oracle} {s : St} {err : Err} {s' : St} {ev : List Ev} (hc : DlCase E o s err s' ev) :
    ∃ a q e m p, (a = [.sleep] ∨ a = [.readPacket, .sleep]) ∧ Quiet q ∧ ev = a ++ q ++ [.downlink e m p] := by
  cases hc with
  | none => exact ⟨[.sleep], [], _, _, _, .inl rfl, Quiet.nil, rfl⟩
  | join e s' p ev _ _ hc => exact ⟨_, ev, _, _, _, .inr rfl, hc.quiet, rfl⟩
  | data e s' p ev _ _ hc => exact ⟨_, ev, _, _, _, .inr rfl, hc.quiet, rfl⟩

end Uwan
