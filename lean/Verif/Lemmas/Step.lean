import Verif.Lemmas.Join
import Verif.Model.History

/-! What radio events and whole operations do, as case lists; the invariant over histories. -/

namespace Uwan

/-! ### Invariant preservation -/

theorem Inv.adrHandleUplink {s : St} (h : Inv s) : Inv (adrHandleUplink s) := by
  unfold Uwan.adrHandleUplink
  simp only
  split
  · exact { h with dr := by have := h.dr; show s.session.dr - 1 < 6; omega }
  · exact { h with }

theorem Inv.sentSt0 {s : St} (h : Inv s) (hp : s.phase = .idle) (d : Sf × Bw) {fr : Bytes} (hf : fr.length = 255) :
    Inv (sentSt0 s d fr) :=
  { h with queue := Nat.zero_le _, frame := hf, region := fun _ => h.region (by rw [hp]; decide) }

theorem Inv.joinedSt {s : St} (h : Inv s) (hp : s.phase = .idle) (d : Sf × Bw) (n : Nat) {fr : Bytes}
    (hf : fr.length = 255) : Inv (joinedSt s d n fr) :=
  { h with frame := hf, region := fun _ => h.region (by rw [hp]; decide) }

theorem SendCase.inv {E : Env} {s : St} (h : Inv s) {port : Byte} {pld : Bytes} {c : Bool} {rnd : Nat} {e : Err}
    {s' : St} {ev : List Ev} (hc : SendCase E s port pld c rnd e s' ev) : Inv s' := by
  cases hc with
  | state => exact h
  | channel => exact h
  | len => exact h
  | sent f d hp hg hf hl hn hd hd1 hd2 hlen =>
    refine (h.sentSt0 hp d ?_).adrHandleUplink
    simp [h.frame]; omega

theorem JoinReqCase.inv {E : Env} {s : St} (h : Inv s) {r1 r2 : Nat} {e : Err} {s' : St} {ev : List Ev}
    (hc : JoinReqCase E s r1 r2 e s' ev) : Inv s' := by
  cases hc with
  | state => exact h
  | channel => exact h
  | sent f d hp hg hf hd hd1 hd2 =>
    refine h.joinedSt hp d _ ?_
    simp [h.frame, buildJoin_length]

theorem Inv.frameUpd {s : St} (h : Inv s) {fr : Bytes} (hf : fr.length = 255) : Inv { s with frame := fr } :=
  { h with frame := hf }

theorem DataCase.inv {E : Env} {bat : Nat → Byte} {s : St} (h : Inv s) {pkt : DlPkt} {buf : Bytes} {e : Err} {s' : St}
    {p' : DlPkt} {ev : List Ev} (hc : DataCase E bat s pkt buf e s' p' ev) : Inv s' := by
  cases hc with
  | short => exact h
  | mhdr => exact h
  | addr H => exact h.mark H
  | fopts H => exact h.mark H
  | fcnt H => exact h.mark H
  | mic H d s2 ev1 hb hl ht ha hf hd hm hi => exact hi
  | good H d s2 ev1 fr hb hl ht ha hf hd hm hi hfr hok hlen => exact { hi with frame := hlen }

theorem JMsg.done_inv {E : Env} {s : St} (h : Inv s) (J : JMsg) {c : Chan} (hc : ChanInv c) : Inv (J.done E s c) := by
  have h1 := h.joinRxParams J.dl J.dly
  exact { h1 with chan := hc, dr := h1.defaultDr }

theorem JoinCase.inv {E : Env} {s : St} (h : Inv s) {pkt : DlPkt} {buf : Bytes} {e : Err} {s' : St}
    {p' : DlPkt} {ev : List Ev} (hc : JoinCase E s pkt buf e s' p' ev) : Inv s' := by
  cases hc with
  | len => exact h
  | mhdr => exact h
  | mic blks fr hb hn hlen => exact h.frameUpd hlen
  | good blks fr J c hb hn hlen hok hJ hc hci => exact J.done_inv (h.frameUpd hlen) hci

/-! ### `handle_downlink` -/

/-- The packet handed to the parser. -/
def rxPkt (o : Oracle) : DlPkt := ⟨some (o.rxData.take 255), 0, o.rssi, o.snr⟩

/-- State in which the parser runs: the packet is in the frame buffer. -/
def rxSt (o : Oracle) (s : St) : St := { s with frame := o.rxData.take 255 ++ s.frame.drop (o.rxData.take 255).length }

/-- The message type reported, taken from the first byte of the frame buffer. -/
def rxMtype (o : Oracle) (s : St) : Byte := (((rxSt o s).frame.head?.getD 0) >>> 5) &&& 7

/-- The cases of `handle_downlink`. -/
inductive DlCase (E : Env) (o : Oracle) (s : St) (err : Err) : St → List Ev → Prop where
  | none (h : err ≠ .no) :
      DlCase E o s err { s with joinState := false } [.sleep, .downlink err 0 ⟨none, 0, 0, 0⟩]
  | join (e : Err) (s' : St) (p : DlPkt) (ev : List Ev) (h : err = .no) (hj : s.joinState = true)
      (hc : JoinCase E (rxSt o s) (rxPkt o) (o.rxData.take 255) e s' p ev) :
      DlCase E o s err { s' with joinState := false }
        ([.readPacket, .sleep] ++ ev ++ [.downlink e (rxMtype o s) p])
  | data (e : Err) (s' : St) (p : DlPkt) (ev : List Ev) (h : err = .no) (hj : s.joinState = false)
      (hc : DataCase E o.bat (rxSt o s) (rxPkt o) (o.rxData.take 255) e s' p ev) :
      DlCase E o s err { s' with joinState := false }
        ([.readPacket, .sleep] ++ ev ++ [.downlink e (rxMtype o s) p])

theorem rxSt_frame (o : Oracle) {s : St} (h : s.frame.length = 255) : (rxSt o s).frame.length = 255 := by
  simp [rxSt, h]; omega

theorem handleDownlink_cases (E : Env) (o : Oracle) {s : St} (h : Inv s) (hr : s.region.isSome = true) (err : Err) :
    ∃ s' ev, handleDownlink E o s err = .ok (s', ev) ∧ DlCase E o s err s' ev := by
  unfold handleDownlink
  by_cases he : err = .no
  rotate_left
  · rw [if_neg he]; exact ⟨_, _, rfl, .none he⟩
  rw [if_pos he]
  have hl : (o.rxData.take 255).length ≤ 255 := by simp; omega
  simp only [blit_zero (dst := s.frame) (src := o.rxData.take 255) (by rw [h.frame]; exact hl)]
  have hframe := rxSt_frame o h.frame
  have hinv : Inv (rxSt o s) := h.frameUpd hframe
  have hhd : ∃ b, (rxSt o s).frame.head? = some b := by
    cases hx : (rxSt o s).frame with
    | nil => rw [hx] at hframe; simp at hframe
    | cons b l => exact ⟨b, rfl⟩
  obtain ⟨b, hb⟩ := hhd
  have hb' : (o.rxData.take 255 ++ s.frame.drop (o.rxData.take 255).length).head? = some b := hb
  simp only [orOob, bind, Except.bind, hb']
  have hm : (b >>> 5) &&& 7 = rxMtype o s := by simp [rxMtype, hb]
  by_cases hj : s.joinState = true
  · obtain ⟨e, s', p, ev, heq, hc⟩ := handleJoinMsg_cases E hinv hr (rxPkt o) (o.rxData.take 255) rfl
    rw [if_pos hj]
    unfold rxSt rxPkt at heq
    rw [heq]
    simp only
    rw [hm]
    exact ⟨_, _, rfl, .join e s' p ev he hj hc⟩
  · obtain ⟨e, s', p, ev, heq, hc⟩ := handleDataMsg_cases E o.bat hinv hr (rxPkt o) (o.rxData.take 255) rfl hl
    rw [if_neg hj]
    unfold rxSt rxPkt at heq
    rw [heq]
    simp only
    rw [hm]
    exact ⟨_, _, rfl, .data e s' p ev he (by simpa using hj) hc⟩

theorem Inv.joinStateOff {s : St} (h : Inv s) : Inv { s with joinState := false } := { h with }

theorem DlCase.inv {E : Env} {o : Oracle} {s : St} (h : Inv s) {err : Err} {s' : St} {ev : List Ev}
    (hc : DlCase E o s err s' ev) : Inv s' := by
  have hinv : Inv (rxSt o s) := h.frameUpd (rxSt_frame o h.frame)
  cases hc with
  | none => exact h.joinStateOff
  | join e s' p ev _ _ hc => exact (hc.inv hinv).joinStateOff
  | data e s' p ev _ _ hc => exact (hc.inv hinv).joinStateOff

/-! ### `evt_handler` -/

/-- The packet parameters of the first window. -/
def rx1Pp (s : St) : PktParams :=
  if s.rx1Offset = 0 then { s.pp with invertedIq := true }
  else
    let x := (drTable (currentDr s - s.rx1Offset.toNat)).getD (.sf12, .bw125)
    { s.pp with sf := x.1, bw := x.2, invertedIq := true }

/-- The packet parameters of the second window. -/
def rx2Pp (s : St) (d : Sf × Bw) : PktParams := { s.pp with sf := d.1, bw := d.2, invertedIq := true }

/-- The cases of `evt_handler` outside undefined behaviour. -/
inductive EvtCase (E : Env) (o : Oracle) (s : St) (mask : Byte) : St → List Ev → Prop where
  | ignore (h : s.phase = .notInit ∨ s.phase = .idle ∨
        (s.phase = .tx ∧ irqTxDone mask = false) ∨
        ((s.phase = .rx1 ∨ s.phase = .rx2) ∧ irqRxTimeout mask = false ∧ irqRxDone mask = false)) :
      EvtCase E o s mask s []
  | txDone (m : Mac) (ev2 : List Ev) (hp : s.phase = .tx) (hm : irqTxDone mask = true)
      (hmac : macOnTxComplete s.mac o.devTime = .ok (m, ev2)) :
      EvtCase E o s mask { s with phase := .rx1, pp := rx1Pp s, mac := m }
        ([.startTimer .rx1 s.rx1Delay, .startTimer .rx2 s.rx2Delay, .setup (rx1Pp s)] ++ ev2)
  | rx1Timeout (d : Sf × Bw) (hp : s.phase = .rx1) (hm : irqRxTimeout mask = true)
      (hd : drTable s.rx2Dr = some d) (hd1 : d.2 = .bw125) (hd2 : d.1 ≠ .sf6) :
      EvtCase E o s mask { s with phase := .rx2, pp := rx2Pp s d } [.setFrequency s.rx2Freq, .setup (rx2Pp s d)]
  | rx1Done (s' : St) (ev : List Ev) (hp : s.phase = .rx1) (ht : irqRxTimeout mask = false)
      (hm : irqRxDone mask = true)
      (hc : DlCase E o { s with phase := .idle } (if irqCrcError mask then .rxCrc else .no) s' ev) :
      EvtCase E o s mask s' (.stopTimer .rx2 :: ev)
  | rx2Timeout (s' : St) (ev : List Ev) (hp : s.phase = .rx2) (hm : irqRxTimeout mask = true)
      (hc : DlCase E o { s with phase := .idle } .rxTimeout s' ev) : EvtCase E o s mask s' ev
  | rx2Done (s' : St) (ev : List Ev) (hp : s.phase = .rx2) (ht : irqRxTimeout mask = false)
      (hm : irqRxDone mask = true)
      (hc : DlCase E o { s with phase := .idle } (if irqCrcError mask then .rxCrc else .no) s' ev) :
      EvtCase E o s mask s' ev

/-- The only undefined behaviour of an event: the end of a transmission after a queued DeviceTimeReq without any
registered handlers. -/
def TimeTrap (s : St) (mask : Byte) : Prop :=
  s.phase = .tx ∧ irqTxDone mask = true ∧ s.mac.saveDevTime = true ∧ s.mac.cbs = none

theorem rx1Params_ok {s : St} (h : Inv s) : rx1Params s = .ok (rx1Pp s) := by
  unfold rx1Params rx1Pp
  by_cases ho : s.rx1Offset = 0
  · rw [if_neg (by simpa using ho), if_pos ho]
  · rw [if_pos ho]
    have hdr : (if s.rx1Offset.toNat > currentDr s then 0 else currentDr s - s.rx1Offset.toNat) =
        currentDr s - s.rx1Offset.toNat := by split <;> omega
    have := currentDr_lt h
    obtain ⟨sf, hd, hsf⟩ := drTable_lt (n := currentDr s - s.rx1Offset.toNat) (by omega)
    simp only [hdr, hd, orOob, bind, Except.bind, ho, ↓reduceIte, Option.getD_some]

theorem evtHandler_cases (E : Env) (o : Oracle) {s : St} (h : Inv s) (mask : Byte) :
    (∃ s' ev, evtHandler E o s mask = .ok (s', ev) ∧ EvtCase E o s mask s' ev) ∨
    (TimeTrap s mask ∧ evtHandler E o s mask = .error .nullDeref) := by
  unfold evtHandler
  have hi : ∀ p, s.phase ≠ .notInit → Inv { s with phase := p } := fun p hp => { h with region := fun _ => h.region hp }
  cases hp : s.phase with
  | notInit => left; exact ⟨_, _, rfl, .ignore (.inl hp)⟩
  | idle => left; exact ⟨_, _, rfl, .ignore (.inr (.inl hp))⟩
  | tx =>
    simp only [evtTx]
    cases hm : irqTxDone mask with
    | false => left; exact ⟨_, _, rfl, .ignore (.inr (.inr (.inl ⟨hp, hm⟩)))⟩
    | true =>
      simp only [↓reduceIte, rx1Params_ok h, bind, Except.bind]
      cases hmac : macOnTxComplete s.mac o.devTime with
      | ok x => left; exact ⟨_, _, rfl, .txDone x.1 x.2 hp hm hmac⟩
      | error u =>
        right
        unfold macOnTxComplete at hmac
        split at hmac
        · next hs =>
          split at hmac
          · next hn =>
            simp only [Except.error.injEq] at hmac
            subst hmac
            exact ⟨⟨hp, hm, hs, hn⟩, rfl⟩
          · split at hmac <;> simp at hmac
        · simp at hmac
  | rx1 =>
    left
    have hreg := h.region (by rw [hp]; decide)
    simp only [evtRx1]
    cases ht : irqRxTimeout mask with
    | true =>
      obtain ⟨sf, hd, hsf⟩ := drTable_lt h.rx2Dr
      simp only [↓reduceIte, hd, orOob, bind, Except.bind]
      exact ⟨_, _, rfl, .rx1Timeout (sf, .bw125) hp ht hd rfl hsf⟩
    | false =>
      cases hm : irqRxDone mask with
      | false => exact ⟨_, _, rfl, .ignore (.inr (.inr (.inr ⟨.inl hp, ht, hm⟩)))⟩
      | true =>
        obtain ⟨s', ev, he, hc⟩ := handleDownlink_cases E o (hi .idle (by rw [hp]; decide)) hreg
          (if irqCrcError mask then .rxCrc else .no)
        simp only [↓reduceIte, Bool.false_eq_true, he, bind, Except.bind]
        exact ⟨_, _, rfl, .rx1Done s' ev hp ht hm hc⟩
  | rx2 =>
    left
    have hreg := h.region (by rw [hp]; decide)
    simp only [evtRx2]
    cases ht : irqRxTimeout mask with
    | true =>
      obtain ⟨s', ev, he, hc⟩ := handleDownlink_cases E o (hi .idle (by rw [hp]; decide)) hreg .rxTimeout
      simp only [↓reduceIte, he]
      exact ⟨_, _, rfl, .rx2Timeout s' ev hp ht hc⟩
    | false =>
      cases hm : irqRxDone mask with
      | false => exact ⟨_, _, rfl, .ignore (.inr (.inr (.inr ⟨.inr hp, ht, hm⟩)))⟩
      | true =>
        obtain ⟨s', ev, he, hc⟩ := handleDownlink_cases E o (hi .idle (by rw [hp]; decide)) hreg
          (if irqCrcError mask then .rxCrc else .no)
        simp only [↓reduceIte, Bool.false_eq_true, he]
        exact ⟨_, _, rfl, .rx2Done s' ev hp ht hm hc⟩

theorem macOnTxComplete_queue {m m' : Mac} {t : U32} {ev : List Ev} (h : macOnTxComplete m t = .ok (m', ev)) :
    m'.queue = m.queue := by
  unfold macOnTxComplete at h
  split at h
  · split at h
    · simp at h
    · split at h <;> simp only [Except.ok.injEq, Prod.mk.injEq] at h <;> rw [← h.1]
  · simp only [Except.ok.injEq, Prod.mk.injEq] at h; rw [← h.1]

theorem EvtCase.inv {E : Env} {o : Oracle} {s : St} (h : Inv s) {mask : Byte} {s' : St} {ev : List Ev}
    (hc : EvtCase E o s mask s' ev) : Inv s' := by
  have hi : ∀ p, s.phase ≠ .notInit → Inv { s with phase := p } := fun p hp => { h with region := fun _ => h.region hp }
  cases hc with
  | ignore => exact h
  | txDone m ev2 hp hm hmac =>
    have h1 := hi .rx1 (by rw [hp]; decide)
    exact { h1 with queue := by rw [macOnTxComplete_queue hmac]; exact h.queue }
  | rx1Timeout d hp =>
    have h1 := hi .rx2 (by rw [hp]; decide)
    exact { h1 with }
  | rx1Done s' ev hp _ _ hc => exact hc.inv (hi .idle (by rw [hp]; decide))
  | rx2Timeout _ _ hp _ hc => exact hc.inv (hi .idle (by rw [hp]; decide))
  | rx2Done _ _ hp _ _ hc => exact hc.inv (hi .idle (by rw [hp]; decide))

/-! ### `uwan_init` -/

theorem Inv.setChan {s : St} (h : Inv s) (i : Nat) (f : U32) : Inv (s.setChan i f) :=
  h.withChan (h.chan.setChannel i f)

/-- The channel table after `uwan_init`. -/
def initChan (r : Region) (c : Chan) : Chan :=
  match r with
  | .eu868 =>
    (setChannel (setChannel (setChannel (channelsInit c) 0 868100000).2 1 868300000).2 2 868500000).2
  | .ru864 => (setChannel (setChannel (channelsInit c) 0 868900000).2 1 869100000).2

/-- The default RX2 frequency. -/
def initRx2 (r : Region) : U32 := match r with | .eu868 => 868100000 | .ru864 => 869100000

theorem setRx1Delay_one (s : St) : (setRx1Delay s 1).2 = { s with defaultRx1Delay := 1000 } := by
  unfold setRx1Delay; rw [if_pos (by decide)]; rfl

theorem setRx1DrOffset_zero (s : St) : (setRx1DrOffset s 0).2 = { s with rx1Offset := 0 } := by
  unfold setRx1DrOffset; rw [if_pos (by decide)]

theorem setRx2_zero (s : St) (f : U32) (h : isValidFrequency f = true) :
    (setRx2 s f 0).2 = { s with rx2Freq := f, rx2Dr := 0 } := by
  have h0 : isValidDr 0 = true := by decide
  unfold setRx2; simp only [h, h0, Bool.not_true, Bool.false_eq_true, ↓reduceIte]

theorem uwanInit_eq (s : St) (r : Region) : (uwanInit s r).1 =
    { s with
      phase := .idle
      region := some r
      session := .zero
      mac := { s.mac with queue := [], saveDevTime := false }
      chan := initChan r s.chan
      rx1Offset := 0
      defaultRx1Delay := 1000
      rx2Freq := initRx2 r
      rx2Dr := 0
      pp := { s.pp with cr := .cr45, preambleLen := 8, crcOn := true, implicitHeader := false } } := by
  have h1 : isValidFrequency 868100000 = true := by decide
  have h2 : isValidFrequency 869100000 = true := by decide
  cases r
  · simp only [uwanInit, Region.init, eu868Init, setRx1Delay_one, setRx1DrOffset_zero, setRx2_zero _ _ h1, St.setChan,
      macInit, initChan, initRx2]
  · simp only [uwanInit, Region.init, ru864Init, setRx1Delay_one, setRx1DrOffset_zero, setRx2_zero _ _ h2, St.setChan,
      macInit, initChan, initRx2]

theorem ChanInv.initChan {c : Chan} (h : ChanInv c) (r : Region) : ChanInv (initChan r c) := by
  have h0 := ChanInv.init h.legal
  cases r
  · exact ((h0.setChannel 0 868100000).setChannel 1 868300000).setChannel 2 868500000
  · exact (h0.setChannel 0 868900000).setChannel 1 869100000

theorem Inv.uwanInit {s : St} (h : Inv s) (r : Region) : Inv (uwanInit s r).1 := by
  rw [uwanInit_eq]
  exact { h with
    chan := h.chan.initChan r
    queue := Nat.zero_le _
    dr := (by decide : (0 : Nat) < 6)
    rx2Dr := (by decide : (0 : Nat) < 6)
    rx1Offset := (by decide : (0 : Byte).toNat < 6)
    delay := ⟨1, by decide, by decide, rfl⟩
    region := fun _ => rfl
    rx2Freq := fun _ => (by cases r <;> decide : isValidFrequency (initRx2 r) = true) }

/-! ### Operations -/

/-- The only undefined behaviour reachable with valid arguments. -/
def Op.Trap (s : St) : Op → Prop
  | .event mask _ => TimeTrap s mask
  | _ => False

theorem Inv.boot : Inv St.boot where
  chan := by
    refine ⟨by decide, fun i _ h => ?_, fun i _ h => ?_, fun i hi h => ?_⟩
    · have : (Mask.mk 0#8 0#8).isSet i = true := h
      rw [Mask.isSet_zero] at this; simp at this
    · have : (Mask.mk 0#8 0#8).isSet i = true := h
      rw [Mask.isSet_zero] at this; simp at this
    · exfalso; apply h
      show ((Vector.replicate 16 (0 : U32))[i]?).getD 0 = 0
      simp [hi]
  queue := by decide
  frame := by show (List.replicate 255 (0 : Byte)).length = 255; rw [List.length_replicate]
  dr := by decide
  defaultDr := by decide
  rx2Dr := by decide
  rx1Offset := by decide
  txPower := by decide
  nbTrans := by decide
  defaultNbTrans := by decide
  delay := ⟨1, by decide, by decide, rfl⟩
  region := fun h => absurd rfl h
  rx2Freq := fun h => by cases h

theorem Inv.setDr {s : St} (h : Inv s) {dr : Nat} (hd : dr < 256) : Inv (setDr s dr) := by
  unfold Uwan.setDr; split
  · next hv => exact { h with dr := isValidDr_lt hv hd, defaultDr := isValidDr_lt hv hd }
  · exact h

theorem Inv.setNbTrans {s : St} (h : Inv s) (n : Byte) : Inv (setNbTrans s n).2 := by
  unfold Uwan.setNbTrans
  simp only
  unfold Uwan.setNbTransInt
  by_cases hv : 1 ≤ n.toNat ∧ n.toNat ≤ 15
  · simp only [hv, and_self, ↓reduceIte]; exact { h with nbTrans := hv, defaultNbTrans := hv }
  · simp only [hv, ↓reduceIte]; exact h

theorem Inv.setTxPower {s : St} (h : Inv s) (n : Byte) : Inv (setTxPower s n).2 := by
  unfold Uwan.setTxPower
  simp only
  unfold Uwan.setTxPowerInt
  by_cases hv : isValidTxPower n = true
  · simp only [hv, ↓reduceIte]
    exact { h with txPower := by simpa [isValidTxPower] using hv }
  · simp only [hv]; exact h

/-- Every valid operation in a good state succeeds and leads to a good state, except for the one trap. -/
theorem step_ok (E : Env) {s : St} (h : Inv s) {op : Op} (hv : op.Valid) :
    (∃ r s' ev, step E s op = .ok (r, s', ev) ∧ Inv s') ∨ (op.Trap s ∧ step E s op = .error .nullDeref) := by
  cases op with
  | init r => left; exact ⟨_, _, _, rfl, h.uwanInit r⟩
  | setOtaaKeys d a k => left; exact ⟨_, _, _, rfl, { h with }⟩
  | setSession a u d n k => left; exact ⟨_, _, _, rfl, { h with dr := h.defaultDr }⟩
  | enableChannel i en => left; exact ⟨_, _, _, rfl, h.withChan (h.chan.enableChannel _ _)⟩
  | setChannel i f => left; exact ⟨_, _, _, rfl, h.withChan (h.chan.setChannel _ _)⟩
  | setRx2 f dr => left; exact ⟨_, _, _, rfl, h.setRx2 f dr hv⟩
  | join r1 r2 =>
    left
    obtain ⟨e, s', ev, he, hc⟩ := uwanJoin_cases E h r1 r2
    exact ⟨_, _, _, by simp only [step, he]; rfl, hc.inv h⟩
  | send p l c r =>
    left
    obtain ⟨e, s', ev, he, hc⟩ := sendFrame_cases E h p l c r
    exact ⟨_, _, _, by simp only [step, he]; rfl, hc.inv h⟩
  | timer id =>
    left; refine ⟨_, _, _, rfl, ?_⟩
    unfold timerCallback
    repeat' split
    all_goals exact { h with }
  | event m o =>
    rcases evtHandler_cases E o h m with ⟨s', ev, he, hc⟩ | ⟨ht, he⟩
    · left; exact ⟨_, _, _, by simp only [step, he]; rfl, hc.inv h⟩
    · right; exact ⟨ht, by simp only [step, he]; rfl⟩
  | setDr dr => left; exact ⟨_, _, _, rfl, h.setDr hv⟩
  | setNbTrans n => left; exact ⟨_, _, _, rfl, h.setNbTrans n⟩
  | setMaxEirp e => left; exact ⟨_, _, _, rfl, { h with }⟩
  | setTxPower p => left; exact ⟨_, _, _, rfl, h.setTxPower p⟩
  | setRx1DrOffset o => left; exact ⟨_, _, _, rfl, h.setRx1DrOffset o⟩
  | setRx1Delay d => left; exact ⟨_, _, _, rfl, h.setRx1Delay d⟩
  | adrEnable en => left; exact ⟨_, _, _, rfl, { h with }⟩
  | adrSetupAck l d => left; exact ⟨_, _, _, rfl, { h with }⟩
  | macSetHandlers c => left; exact ⟨_, _, _, rfl, { h with }⟩
  | linkCheckReq => left; exact ⟨_, _, _, rfl, h.enqueue _ _⟩
  | deviceTimeReq => left; exact ⟨_, _, _, rfl, { h with queue := macEnqueue_len h.queue _ _ }⟩
  | isJoined => left; exact ⟨_, _, _, rfl, h⟩
  | getMaxPayload => left; exact ⟨_, _, _, rfl, h⟩

theorem step_inv {E : Env} {s s' : St} {op : Op} {r : Ret} {ev : List Ev} (h : Inv s) (hv : op.Valid)
    (he : step E s op = .ok (r, s', ev)) : Inv s' := by
  rcases step_ok E h hv with ⟨r', s'', ev', he', hi⟩ | ⟨_, he'⟩
  · rw [he] at he'; simp only [Except.ok.injEq, Prod.mk.injEq] at he'; rw [he'.2.1]; exact hi
  · rw [he] at he'; simp at he'

/-! ### Histories -/

theorem run_cons {E : Env} {s s'' : St} {op : Op} {ops : List Op} {ev : List Ev}
    (h : run E s (op :: ops) = .ok (s'', ev)) :
    ∃ r s' ev1 ev2, step E s op = .ok (r, s', ev1) ∧ run E s' ops = .ok (s'', ev2) ∧ ev = ev1 ++ ev2 := by
  simp only [run, bind, Except.bind] at h
  split at h
  · simp at h
  · next x hx =>
    split at h
    · simp at h
    · next y hy =>
      simp only [Except.ok.injEq, Prod.mk.injEq] at h
      exact ⟨x.1, x.2.1, x.2.2, y.2, hx, by rw [hy, ← h.1], h.2.symm⟩

/-- A relation between a state and the effects so far that every step preserves holds along a history. -/
theorem run_rel {E : Env} {R : St → List Ev → Prop} {V : Op → Prop}
    (hstep : ∀ s tr op r s' ev, R s tr → V op → step E s op = .ok (r, s', ev) → R s' (tr ++ ev)) :
    ∀ (ops : List Op) (s s' : St) (tr ev : List Ev), R s tr → (∀ op ∈ ops, V op) →
      run E s ops = .ok (s', ev) → R s' (tr ++ ev)
  | [], s, s', tr, ev, hR, _, h => by
    simp only [run, Except.ok.injEq, Prod.mk.injEq] at h
    rw [← h.1, ← h.2, List.append_nil]; exact hR
  | op :: ops, s, s', tr, ev, hR, hV, h => by
    obtain ⟨r, s1, ev1, ev2, h1, h2, rfl⟩ := run_cons h
    rw [← List.append_assoc]
    exact run_rel hstep ops s1 s' (tr ++ ev1) ev2 (hstep _ _ _ _ _ _ hR (hV op (by simp)) h1)
      (fun o ho => hV o (by simp [ho])) h2

theorem run_inv {E : Env} {s s' : St} {ops : List Op} {ev : List Ev} (h : Inv s) (hv : ∀ op ∈ ops, op.Valid)
    (he : run E s ops = .ok (s', ev)) : Inv s' :=
  run_rel (R := fun s _ => Inv s) (V := Op.Valid) (fun _ _ _ _ _ _ hR hV h1 => step_inv hR hV h1) ops s s' [] ev h hv he

end Uwan
